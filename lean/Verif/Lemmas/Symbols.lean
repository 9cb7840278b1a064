import Verif.Spec.Symbols
import Verif.Lemmas.SymbolTable
import Verif.Lemmas.Decks
import Verif.Lemmas.Sort

/-! Lemmas about `buildSymbolTable`. -/

namespace H800

open Spec

/-! ### Splitting -/

theorem pySplit_none {c : Char} {s : Str} (h : c ∉ s) : pySplit c s = [s] := by
  induction s with
  | nil => rfl
  | cons x s ih =>
    simp only [List.mem_cons, not_or] at h
    rw [pySplit, if_neg (fun e => h.1 e.symm), ih h.2]

theorem pySplit_append {c : Char} {p s : Str} (h : c ∉ p) :
    pySplit c (p ++ c :: s) = p :: pySplit c s := by
  induction p with
  | nil => simp [pySplit]
  | cons x p ih =>
    simp only [List.mem_cons, not_or] at h
    rw [List.cons_append, pySplit, if_neg (fun e => h.1 e.symm), ih h.2]

theorem pySplit_zero (c : Char) (s : Str) : (pySplit c s).getD 0 [] = splitFirst s c := by
  obtain ⟨h1, h2⟩ := beforeFirst c s
  generalize splitFirst s c = p at *
  rcases h2 with rfl | ⟨r, rfl⟩
  · rw [pySplit_none h1]; rfl
  · rw [pySplit_append h1]; rfl

theorem contains_comma {s : Str} {c : Char} : s.contains c = true ↔ c ∈ s := by simp

theorem exists_first {c : Char} {s : Str} (h : c ∈ s) : ∃ p r, s = p ++ c :: r ∧ c ∉ p := by
  obtain ⟨h1, h2⟩ := beforeFirst c s
  rcases h2 with e | ⟨r, e⟩
  · rw [← e] at h1; exact absurd h h1
  · exact ⟨_, r, e, h1⟩

theorem hasPrefix_iff {p s : Str} : hasPrefix p s = true ↔ ∃ r, s = p ++ r := by
  unfold hasPrefix
  rw [List.isPrefixOf_iff_prefix]
  exact ⟨fun ⟨r, h⟩ => ⟨r, h.symm⟩, fun ⟨r, h⟩ => ⟨r, h.symm⟩⟩

theorem hasSuffix_iff {p s : Str} : hasSuffix p s = true ↔ ∃ r, s = r ++ p := by
  unfold hasSuffix
  rw [List.isSuffixOf_iff_suffix]
  exact ⟨fun ⟨r, h⟩ => ⟨r, h.symm⟩, fun ⟨r, h⟩ => ⟨r, h.symm⟩⟩

/-! ### Cards of source lines -/

/-- The card of a source line. -/
def srcCard (s : Src) : CodeCard :=
  let f := fun a b => PunchCard.entry (columns s.text a b)
  let code := fun a b => if Card.isPRL (val (columns s.text 1 2)) then none else f a b
  ⟨some s.file, s.num, f 1 2, f 2 8, f 8 9, code 9 20, code 20 33, code 33 47, code 47 61,
    code 61 76, (code 20 33).map fun o => strip (splitFirst o ','), remove s.text '\n'⟩

theorem text_val (f : Str) : (val f).text = .ok (PunchCard.entry f) := by
  unfold val
  cases PunchCard.entry f <;> rfl

theorem codeCard_src (s : Src) (h : s.text.head? ≠ some '#') (c : PunchCard)
    (hc : mkCard argusClass DEFAULT_WIDTH DEFAULT_FIELDS s = .ok c) :
    codeCard c = .ok (srcCard s) := by
  unfold mkCard at hc
  rw [argus_eq s.text h] at hc
  cases hc
  obtain ⟨h1, h2, h3, h4, h5⟩ := argus_items s.text s.num
  unfold codeCard Card.column1 Card.lognum Card.column8 Card.label Card.operation Card.operand1
    Card.operand2 Card.operand3 Card.instruction PunchCard.item PunchCard.record PunchCard.getBody
  simp only [py_bind_ok, h1, h2, h3, text_val, py_pure]
  by_cases hp : PRL s.text
  · obtain ⟨k1, k2, k3, k4, k5, -, k7, -⟩ := h4 hp
    have hp' := (isPRL_iff s.text).2 hp
    simp only [k1, k2, k3, k4, k5, k7, py_bind_ok, RVal.text]
    simp [srcCard, hp']
  · obtain ⟨k1, k2, k3, k4, k5, -, -, k7⟩ := h5 hp
    have hp' : Card.isPRL (val (columns s.text 1 2)) = false := by
      rw [Bool.eq_false_iff]; exact fun e => hp ((isPRL_iff s.text).1 e)
    simp only [k1, k2, k3, k4, k5, text_val, py_bind_ok, k7]
    simp only [srcCard, hp', Bool.false_eq_true, if_false]
    cases PunchCard.entry (columns s.text 20 33) <;> rfl

theorem starred_iff (s : Src) : (srcCard s).column8 = some (py "*") ↔ Starred s := by
  unfold srcCard Starred
  simp only
  rw [entry_some]
  have : columns s.text 8 9 = match s.text[7]? with | some x => [x] | none => [] := by
    unfold columns
    show (s.text.drop 7).take 1 = _
    cases h : s.text[7]? with
    | none =>
      rw [List.drop_of_length_le (List.getElem?_eq_none_iff.1 h)]; rfl
    | some x =>
      obtain ⟨hl, e⟩ := List.getElem?_eq_some_iff.1 h
      rw [List.drop_eq_getElem_cons hl, e]; rfl
  rw [this]
  cases h : s.text[7]? with
  | none => simp [strip]
  | some x =>
    simp only [Option.some.injEq]
    constructor
    · rintro ⟨h1, -⟩
      by_cases hx : isSpace x = true
      · simp [strip, hx] at h1
      · simp [strip, hx] at h1; exact h1
    · rintro rfl; exact ⟨by decide, by decide⟩

theorem code_iff (s : Src) (a b : Nat) (l : Str) :
    (if Card.isPRL (val (columns s.text 1 2)) then none
      else PunchCard.entry (columns s.text a b)) = some l ↔
    ¬ PRL s.text ∧ IsEntry (columns s.text a b) (some l) := by
  rw [← isPRL_iff]
  have : IsEntry (columns s.text a b) (some l) ↔ PunchCard.entry (columns s.text a b) = some l := by
    rw [entry_some, ← stripped_iff]
    show l ≠ [] ∧ Stripped _ _ ↔ _
    exact and_comm
  rw [this]
  split
  · rename_i h; simp [h]
  · rename_i h; simp [h]

theorem label_iff (s : Src) (l : Str) : (srcCard s).label = some l ↔ HasLabel s l := code_iff s 9 20 l

theorem op_iff (s : Src) (o : Str) : (srcCard s).operation = some o ↔ HasOp s o := code_iff s 20 33 o

/-! ### Labels and SETLOC -/

theorem setloc_iff (o sub : Str) :
    SetLoc o sub ↔ hasPrefix (py "SETLOC") o = true ∧ setlocName o = sub := by
  unfold SetLoc setlocName
  rw [hasPrefix_iff]
  refine and_congr Iff.rfl ?_
  by_cases hc : ',' ∈ o
  · rw [if_pos (contains_comma.2 hc)]
    obtain ⟨p, r, e, hp⟩ := exists_first hc
    have h1 : (pySplit ',' o).getD 1 [] = splitFirst r ',' := by
      rw [e, pySplit_append hp, ← pySplit_zero]; rfl
    rw [h1]
    constructor
    · rintro (⟨h, -⟩ | ⟨p', r', q, e', hp', hq, hs⟩)
      · exact absurd hc h
      · have : splitFirst o ',' = p := beforeFirst_unique ⟨hp, Or.inr ⟨r, e⟩⟩
        have h2 : splitFirst o ',' = p' := beforeFirst_unique ⟨hp', Or.inr ⟨r', e'⟩⟩
        have : p = p' := this.symm.trans h2
        subst this
        rw [e] at e'
        have := List.append_cancel_left e'
        simp only [List.cons.injEq, true_and] at this
        subst this
        rw [beforeFirst_unique hq, stripped_iff.1 hs]
    · rintro rfl
      exact Or.inr ⟨p, r, _, e, hp, beforeFirst ',' r, strip_stripped _⟩
  · rw [if_neg (by rw [contains_comma]; exact hc)]
    constructor
    · rintro (⟨-, h⟩ | ⟨p, r, q, e, -⟩)
      · exact h.symm
      · exact absurd (by rw [e]; simp) hc
    · rintro rfl; exact Or.inl ⟨hc, rfl⟩

theorem cleanLabel_eq {l : Str} (h : strip l = l) : cleanLabel l = l.filter (· ≠ ' ') := by
  unfold cleanLabel remove
  rw [h]

theorem checkLabel_good (upper : Str → Str) (s tag tt : Str) :
    checkLabel upper s = .ok (tag, tt) ↔ upper s = s ∧ ',' ∉ tag ∧
      ((s = tag ∧ tt = py " ") ∨ ∃ c ∈ ['B', 'F', 'S', 'Z'], s = c :: ',' :: tag ∧ tt = [c]) := by
  unfold checkLabel
  by_cases hu : upper s = s
  · rw [if_neg (by simpa using hu)]
    simp only [hu, true_and]
    by_cases hc : ',' ∈ s
    · rw [if_pos (contains_comma.2 hc)]
      obtain ⟨p, r, e, hp⟩ := exists_first hc
      have hcount : s.count ',' = r.count ',' + 1 := by
        rw [e, List.count_append, List.count_eq_zero_of_not_mem hp]; simp
      by_cases hr : ',' ∈ r
      · rw [if_pos (by have := List.count_pos_iff.2 hr; omega)]
        constructor
        · intro h; cases h
        · rintro ⟨ht, ⟨h, -⟩ | ⟨c, hcm, h, -⟩⟩
          · rw [h] at hc; exact absurd hc ht
          · have : s.count ',' = 1 := by
              rw [h, List.count_cons, List.count_cons, List.count_eq_zero_of_not_mem ht]
              have : c ≠ ',' := by rintro rfl; revert hcm; decide
              simp [this]
            have := List.count_pos_iff.2 hr
            omega
      · rw [if_neg (by rw [hcount, List.count_eq_zero_of_not_mem hr]; omega)]
        have h0 : (pySplit ',' s).getD 0 [] = p := by rw [e, pySplit_append hp]; rfl
        have h1 : (pySplit ',' s).getD 1 [] = r := by rw [e, pySplit_append hp, pySplit_none hr]; rfl
        simp only [h0, h1]
        by_cases hp4 : p ∈ [py "B", py "F", py "S", py "Z"]
        · have a1 : ∀ p ∈ [py "B", py "F", py "S", py "Z"], TAG_PREFIXES.contains p = true ∧
            [py "L", py "X"].contains p = false ∧ ∃ c ∈ ['B', 'F', 'S', 'Z'], p = [c] := by decide
          obtain ⟨b1, b2, c, hcm, rfl⟩ := a1 p hp4
          rw [if_neg (by simpa using b1), if_neg (by rw [b2]; simp)]
          constructor
          · intro h
            cases h
            exact ⟨hr, Or.inr ⟨c, hcm, e, rfl⟩⟩
          · rintro ⟨ht, ⟨h, -⟩ | ⟨c', hcm', h, rfl⟩⟩
            · rw [h] at hc; exact absurd hc ht
            · rw [e] at h
              simp only [List.cons_append, List.nil_append, List.cons.injEq, true_and] at h
              obtain ⟨rfl, rfl⟩ := h
              rfl
        · have hno : ¬ ∃ c ∈ ['B', 'F', 'S', 'Z'], p = [c] := by
            rintro ⟨c, hcm, rfl⟩
            have a : ∀ c ∈ ['B', 'F', 'S', 'Z'], [c] ∈ [['B'], ['F'], ['S'], ['Z']] := by decide
            exact hp4 (a c hcm)
          have hrhs : ¬ (',' ∉ tag ∧ ((s = tag ∧ tt = py " ") ∨
              ∃ c ∈ ['B', 'F', 'S', 'Z'], s = c :: ',' :: tag ∧ tt = [c])) := by
            rintro ⟨ht, ⟨h, -⟩ | ⟨c, hcm, h, -⟩⟩
            · rw [h] at hc; exact absurd hc ht
            · apply hno
              refine ⟨c, hcm, ?_⟩
              have q1 : splitFirst s ',' = p := beforeFirst_unique ⟨hp, Or.inr ⟨r, e⟩⟩
              have q2 : splitFirst s ',' = [c] := beforeFirst_unique ⟨by
                have : c ≠ ',' := by rintro rfl; revert hcm; decide
                simp [Ne.symm this], Or.inr ⟨tag, h⟩⟩
              exact q1.symm.trans q2
          constructor
          · intro h
            exfalso
            split at h
            · cases h
            · rename_i hpre
              split at h
              · cases h
              · rename_i hlx
                have hpre' : TAG_PREFIXES.contains p = true := by simpa using hpre
                have hmem : p ∈ TAG_PREFIXES := by simpa using hpre'
                have a2 : ∀ p ∈ TAG_PREFIXES, ¬ [py "L", py "X"].contains p = true →
                  p ∈ [py "B", py "F", py "S", py "Z"] := by decide
                exact hp4 (a2 p hmem hlx)
          · intro h; exact absurd h hrhs
    · rw [if_neg (by rw [contains_comma]; exact hc)]
      constructor
      · intro h; cases h; exact ⟨hc, Or.inl ⟨rfl, rfl⟩⟩
      · rintro ⟨ht, ⟨rfl, rfl⟩ | ⟨c, -, h, -⟩⟩
        · rfl
        · exact absurd (by rw [h]; simp) hc
  · rw [if_pos hu]
    constructor
    · intro h; cases h
    · rintro ⟨h, -⟩; exact absurd h hu

theorem goodLabel_iff (upper : Str → Str) {l : Str} (hl : strip l = l) (tag tt : Str) :
    checkLabel upper (cleanLabel l) = .ok (tag, tt) ↔ GoodLabel upper l tag tt := by
  rw [cleanLabel_eq hl, checkLabel_good]; rfl

/-- A label is in error or well formed, and not both. -/
theorem badLabel_iff (upper : Str → Str) (l : Str) :
    BadLabel upper l ↔ ∀ tag tt, ¬ GoodLabel upper l tag tt := by
  unfold BadLabel GoodLabel
  generalize l.filter (· ≠ ' ') = s
  simp only
  constructor
  · rintro (h | h | ⟨p, t, e, hp, h⟩) tag tt ⟨h1, ht, h2⟩
    · exact h h1
    · rcases h2 with ⟨rfl, -⟩ | ⟨c, hc, e, -⟩
      · rw [List.count_eq_zero_of_not_mem ht] at h; omega
      · rw [e, List.count_cons, List.count_cons, List.count_eq_zero_of_not_mem ht] at h
        have : c ≠ ',' := by rintro rfl; revert hc; decide
        simp [this] at h
    · rcases h2 with ⟨rfl, -⟩ | ⟨c, hc, e', -⟩
      · exact ht (by rw [e]; simp)
      · have q1 : splitFirst s ',' = p := beforeFirst_unique ⟨hp, Or.inr ⟨t, e⟩⟩
        have q2 : splitFirst s ',' = [c] := beforeFirst_unique ⟨by
          have : c ≠ ',' := by rintro rfl; revert hc; decide
          simp [Ne.symm this], Or.inr ⟨tag, e'⟩⟩
        rw [q1] at q2
        rw [q2] at h
        have a : ∀ c ∈ ['B', 'F', 'S', 'Z'], [c] ∈ [['B'], ['F'], ['S'], ['Z']] := by decide
        exact h (a c hc)
  · intro h
    by_contra hb
    simp only [not_or, not_exists, not_and, Decidable.not_not, not_le] at hb
    obtain ⟨h1, h2, h3⟩ := hb
    by_cases hc : ',' ∈ s
    · obtain ⟨p, r, e, hp⟩ := exists_first hc
      have hm := h3 p r e hp
      have hr : ',' ∉ r := by
        intro hr
        rw [e, List.count_append] at h2
        have := List.count_pos_iff.2 hr
        simp at h2
        omega
      have : ∃ c ∈ ['B', 'F', 'S', 'Z'], p = [c] := by
        have a : ∀ p ∈ [['B'], ['F'], ['S'], ['Z']], ∃ c ∈ ['B', 'F', 'S', 'Z'], p = [c] := by decide
        exact a p hm
      obtain ⟨c, hcm, rfl⟩ := this
      exact h r [c] ⟨h1, hr, Or.inr ⟨c, hcm, e, rfl⟩⟩
    · exact h s _ ⟨h1, hc, Or.inl ⟨rfl, rfl⟩⟩

/-! ### Nested dictionaries -/

/-- The definition under four keys. -/
def lookup4 (t : Symtab) (tag seg sub kind : Str) : Option SymEntry :=
  dget (dat (dat (dat t tag) seg) sub) kind

/-- Set the definition under four keys. -/
def put4 (t : Symtab) (tag seg sub kind : Str) (e : SymEntry) : Symtab :=
  dset t tag (dset (dat t tag) seg (dset (dat (dat t tag) seg) sub
    (dset (dat (dat (dat t tag) seg) sub) kind e)))

theorem dat_dset {ν : Type} (d : Dict Str (Dict Str ν)) (k k' : Str) (v : Dict Str ν) :
    dat (dset d k v) k' = if k' = k then v else dat d k' := by
  unfold dat
  rw [dget_dset]
  split <;> rfl

theorem lookup4_put4 (t : Symtab) (tag seg sub kind : Str) (e : SymEntry) (tag' seg' sub' kind') :
    lookup4 (put4 t tag seg sub kind e) tag' seg' sub' kind' =
      if tag' = tag ∧ seg' = seg ∧ sub' = sub ∧ kind' = kind then some e
      else lookup4 t tag' seg' sub' kind' := by
  unfold lookup4 put4
  rw [dat_dset]
  by_cases h1 : tag' = tag
  · subst h1
    rw [if_pos rfl, dat_dset]
    by_cases h2 : seg' = seg
    · subst h2
      rw [if_pos rfl, dat_dset]
      by_cases h3 : sub' = sub
      · subst h3
        rw [if_pos rfl, dget_dset]
        by_cases h4 : kind' = kind
        · simp [h4]
        · simp [h4]
      · simp [h3]
    · simp [h2]
  · simp [h1]

theorem dget_dat {ν : Type} (d : Dict Str (Dict Str ν)) (k k' : Str) (v : ν) :
    dget (dat d k) k' = some v ↔ ∃ d', dget d k = some d' ∧ dget d' k' = some v := by
  unfold dat
  cases h : dget d k with
  | none => simp [dget]
  | some d' => simp

theorem recorded_iff (t : Symtab) (tag seg sub kind : Str) (e : SymEntry) :
    Recorded t tag seg sub kind e ↔ lookup4 t tag seg sub kind = some e := by
  unfold Recorded lookup4
  rw [dget_dat]
  constructor
  · rintro ⟨d1, d2, d3, h1, h2, h3, h4⟩
    exact ⟨d3, (dget_dat _ _ _ _).2 ⟨d2, (dget_dat _ _ _ _).2 ⟨d1, h1, h2⟩, h3⟩, h4⟩
  · rintro ⟨d3, h, h4⟩
    obtain ⟨d2, h2, h3⟩ := (dget_dat _ _ _ _).1 h
    obtain ⟨d1, h1, h2⟩ := (dget_dat _ _ _ _).1 h2
    exact ⟨d1, d2, d3, h1, h2, h3, h4⟩

/-- No tag has a segment named like a kind. -/
def Plain4 (t : Symtab) : Prop :=
  ∀ tag, dget (dat t tag) (py "simple") = none ∧ dget (dat t tag) (py "complex") = none

theorem plain_iff (t : Symtab) : PlainTable t ↔ Plain4 t := by
  unfold PlainTable Plain4 PlainSeg
  constructor
  · intro h tag
    constructor
    · cases hd : dget (dat t tag) (py "simple") with
      | none => rfl
      | some v =>
        obtain ⟨d, h1, h2⟩ := (dget_dat _ _ _ _).1 hd
        exact absurd rfl (h tag d h1 _ v h2).1
    · cases hd : dget (dat t tag) (py "complex") with
      | none => rfl
      | some v =>
        obtain ⟨d, h1, h2⟩ := (dget_dat _ _ _ _).1 hd
        exact absurd rfl (h tag d h1 _ v h2).2
  · intro h tag d h1 seg v h2
    have hd := (dget_dat t tag seg v).2 ⟨d, h1, h2⟩
    constructor
    · rintro rfl; rw [(h tag).1] at hd; cases hd
    · rintro rfl; rw [(h tag).2] at hd; cases hd

theorem plain_put4 {t : Symtab} (h : Plain4 t) {seg : Str} (hs : PlainSeg seg) (tag sub kind e) :
    Plain4 (put4 t tag seg sub kind e) := by
  intro tag'
  unfold put4
  rw [dat_dset]
  by_cases ht : tag' = tag
  · rw [if_pos ht, dget_dset, dget_dset, if_neg (Ne.symm hs.1), if_neg (Ne.symm hs.2)]
    exact h tag
  · rw [if_neg ht]; exact h tag'

theorem define_cases (st : BuildState) (seg tag kind cmd : Str) (e : SymEntry) :
    (define st seg tag kind cmd e = .ok { st with symtab := put4 st.symtab tag seg st.subseg kind e }) ∨
    (∃ weird kinds, dget (dat st.symtab tag) kind = some weird ∧
      dget (dat (dat st.symtab tag) seg) st.subseg = some kinds ∧
      (define st seg tag kind cmd e = if cmd = py "EQUALS" then
        (match dget weird (py "card") with
          | none => .error .keyError
          | some _ => .error .attributeError)
        else .ok (st.report ⟨.multiple, tag, e.file, e.line, e.lognum, some e.tagtype, e.card, kinds,
          some cmd⟩))) := by
  unfold define put4
  cases h1 : dget st.symtab tag with
  | none => left; simp [dat, h1, dget, dset]
  | some segs =>
    simp only
    cases h2 : dget segs seg with
    | none => left; simp [dat, h1, h2, dget, dset]
    | some subs =>
      simp only
      cases h3 : dget subs st.subseg with
      | none => left; simp [dat, h1, h2, h3, dset]
      | some kinds =>
        simp only [redefine]
        cases h4 : dget segs kind with
        | none => left; simp [dat, h1, h2, h3]
        | some weird => right; exact ⟨weird, kinds, by simp [dat, h1, h4], by simp [dat, h1, h2, h3], rfl⟩

/-! ### One card -/

/-- The subsegment after a card. -/
def stepSub (sub : Str) (c : CodeCard) : Str :=
  if c.column8 = some (py "*") then sub else nextSubseg sub c.operation

/-- What a card does: nothing, define (tag, tag type, operation), or report an error (with the tag
type so far). -/
inductive Action where
  | skip
  | def_ (tag tagtype op : Str)
  | err (e : SymErr) (label : Str) (tagtype : Option Str)

/-- What a card does. -/
def actionOf (upper : Str → Str) (c : CodeCard) : Action :=
  if c.column8 = some (py "*") then .skip
  else match c.label with
    | none => .skip
    | some [] => .skip
    | some (x :: xs) =>
      match checkLabel upper (cleanLabel (x :: xs)) with
      | .error e => .err e (cleanLabel (x :: xs)) (if e = .case then none else some (py " "))
      | .ok (tag, tt) =>
        match c.operation with
        | none => .err .noOperation (cleanLabel (x :: xs)) (some tt)
        | some o => .def_ tag tt o

/-- The report about a card. -/
def reportOf (c : CodeCard) (e : SymErr) (l : Str) (tt : Option Str) : Diag :=
  ⟨e, l, c.file, c.line, c.lognum, tt, c, [], none⟩

/-- The entry of a card. -/
def entryOf (c : CodeCard) (tt : Str) : SymEntry := ⟨c.file, c.line, c.lognum, tt, c⟩

theorem buildStep_eq (upper : Str → Str) (seg : Str) (st : BuildState) (c : CodeCard) :
    buildStep upper seg st c =
      match actionOf upper c with
      | .skip => .ok { st with subseg := stepSub st.subseg c }
      | .err e l tt => .ok ({ st with subseg := stepSub st.subseg c }.report (reportOf c e l tt))
      | .def_ tag tt o =>
        define { st with subseg := stepSub st.subseg c } seg tag (symtypeOf o) o (entryOf c tt) := by
  unfold buildStep actionOf stepSub
  by_cases h8 : c.column8 = some (py "*")
  · simp [h8]
  · simp only [if_neg h8]
    cases hl : c.label with
    | none => rfl
    | some l =>
      cases l with
      | nil => rfl
      | cons x xs =>
        simp only [defineLabel]
        cases hk : checkLabel upper (cleanLabel (x :: xs)) with
        | error e => rfl
        | ok p =>
          obtain ⟨tag, tt⟩ := p
          simp only
          cases ho : c.operation with
          | none => rfl
          | some o => rfl

/-- The definition made by card `i` when the subsegment is `sub` at the start. -/
def defAt (upper : Str → Str) : Str → List CodeCard → Nat → Option (Str × Str × Str × SymEntry)
  | _, [], _ => none
  | sub, c :: _, 0 =>
    match actionOf upper c with
    | .def_ tag tt o => some (tag, stepSub sub c, symtypeOf o, entryOf c tt)
    | _ => none
  | sub, c :: cs, i + 1 => defAt upper (stepSub sub c) cs i

theorem report_symtab (st : BuildState) (r : Diag) : (st.report r).symtab = st.symtab := rfl
theorem report_subseg (st : BuildState) (r : Diag) : (st.report r).subseg = st.subseg := rfl

/-- The effect of a card on the table, for any segment name. -/
theorem buildStep_table {upper : Str → Str} {seg : Str} {st st' : BuildState} {c : CodeCard}
    (h : buildStep upper seg st c = .ok st') :
    st'.subseg = stepSub st.subseg c ∧
    (st'.symtab = st.symtab ∨ ∃ tag tt o, actionOf upper c = .def_ tag tt o ∧
      st'.symtab = put4 st.symtab tag seg (stepSub st.subseg c) (symtypeOf o) (entryOf c tt)) := by
  rw [buildStep_eq] at h
  cases ha : actionOf upper c with
  | skip => rw [ha] at h; cases h; exact ⟨rfl, Or.inl rfl⟩
  | err e l tt => rw [ha] at h; cases h; exact ⟨rfl, Or.inl rfl⟩
  | def_ tag tt o =>
    rw [ha] at h
    simp only at h
    rcases define_cases { st with subseg := stepSub st.subseg c } seg tag (symtypeOf o) o
      (entryOf c tt) with e | ⟨w, k, -, -, e⟩
    · rw [e] at h; cases h; exact ⟨rfl, Or.inr ⟨tag, tt, o, rfl, rfl⟩⟩
    · rw [e] at h
      split at h
      · split at h <;> cases h
      · cases h; exact ⟨rfl, Or.inl rfl⟩

theorem symtypeOf_cases (o : Str) : symtypeOf o = py "simple" ∨ symtypeOf o = py "complex" := by
  unfold symtypeOf
  split
  · exact Or.inr rfl
  · exact Or.inl rfl

/-- The state after a card, when no segment is named like a kind. -/
def stepPure (upper : Str → Str) (seg : Str) (st : BuildState) (c : CodeCard) : BuildState :=
  match actionOf upper c with
  | .skip => { st with subseg := stepSub st.subseg c }
  | .err e l tt => { st with subseg := stepSub st.subseg c }.report (reportOf c e l tt)
  | .def_ tag tt o =>
    { st with
      subseg := stepSub st.subseg c
      symtab := put4 st.symtab tag seg (stepSub st.subseg c) (symtypeOf o) (entryOf c tt) }

theorem buildStep_plain {upper : Str → Str} {seg : Str} {st : BuildState} {c : CodeCard}
    (ht : Plain4 st.symtab) : buildStep upper seg st c = .ok (stepPure upper seg st c) := by
  rw [buildStep_eq]
  unfold stepPure
  cases ha : actionOf upper c with
  | skip => rfl
  | err e l tt => rfl
  | def_ tag tt o =>
    simp only
    rcases define_cases { st with subseg := stepSub st.subseg c } seg tag (symtypeOf o) o
      (entryOf c tt) with e | ⟨w, k, hw, -, e⟩
    · exact e
    · exfalso
      simp only at hw
      rcases symtypeOf_cases o with h | h
      · rw [h, (ht tag).1] at hw; cases hw
      · rw [h, (ht tag).2] at hw; cases hw

theorem stepPure_plain {upper : Str → Str} {seg : Str} (hs : PlainSeg seg) {st : BuildState}
    (ht : Plain4 st.symtab) (c : CodeCard) : Plain4 (stepPure upper seg st c).symtab := by
  unfold stepPure
  split
  · exact ht
  · exact ht
  · exact plain_put4 ht hs _ _ _ _

theorem buildCards_plain {upper : Str → Str} {seg : Str} (hs : PlainSeg seg) {st : BuildState}
    (ht : Plain4 st.symtab) (cards : List CodeCard) :
    buildCards upper seg st cards = .ok (cards.foldl (stepPure upper seg) st) ∧
      Plain4 (cards.foldl (stepPure upper seg) st).symtab := by
  unfold buildCards
  induction cards generalizing st with
  | nil => exact ⟨rfl, ht⟩
  | cons c cs ih =>
    rw [List.foldlM_cons, buildStep_plain ht, List.foldl_cons]
    exact ih (stepPure_plain hs ht c)

theorem stepPure_sub (upper : Str → Str) (seg : Str) (st : BuildState) (c : CodeCard) :
    (stepPure upper seg st c).subseg = stepSub st.subseg c := by
  unfold stepPure
  split <;> rfl

theorem stepPure_lookup (upper : Str → Str) (seg : Str) (st : BuildState) (c : CodeCard)
    (tag sub kind : Str) :
    lookup4 (stepPure upper seg st c).symtab tag seg sub kind =
      match defAt upper st.subseg [c] 0 with
      | some (tag', sub', kind', e) =>
        if tag = tag' ∧ sub = sub' ∧ kind = kind' then some e
        else lookup4 st.symtab tag seg sub kind
      | none => lookup4 st.symtab tag seg sub kind := by
  unfold stepPure
  rw [defAt]
  cases ha : actionOf upper c with
  | skip => rfl
  | err e l tt => rfl
  | def_ tag' tt o =>
    simp only
    rw [lookup4_put4]
    simp

/-- Without a definition among the cards the entry stays. -/
theorem fold_unchanged (upper : Str → Str) (seg : Str) (tag sub kind : Str) (cards : List CodeCard)
    (st : BuildState)
    (h : ∀ i e, defAt upper st.subseg cards i ≠ some (tag, sub, kind, e)) :
    lookup4 (cards.foldl (stepPure upper seg) st).symtab tag seg sub kind =
      lookup4 st.symtab tag seg sub kind := by
  induction cards generalizing st with
  | nil => rfl
  | cons c cs ih =>
    rw [List.foldl_cons, ih, stepPure_lookup]
    · have h0 := h 0
      rw [defAt] at h0
      rw [defAt]
      split
      · rename_i tag' sub' kind' e heq
        rw [if_neg]
        rintro ⟨rfl, rfl, rfl⟩
        exact h0 e heq
      · rfl
    · intro i e
      rw [stepPure_sub]
      exact h (i + 1) e

/-- The last definition among the cards is the one in the table. -/
theorem fold_last (upper : Str → Str) (seg : Str) (tag sub kind : Str) (cards : List CodeCard)
    (st : BuildState) (i : Nat) (e : SymEntry)
    (hi : defAt upper st.subseg cards i = some (tag, sub, kind, e))
    (h : ∀ j e', i < j → defAt upper st.subseg cards j ≠ some (tag, sub, kind, e')) :
    lookup4 (cards.foldl (stepPure upper seg) st).symtab tag seg sub kind = some e := by
  induction cards generalizing st i with
  | nil => simp [defAt] at hi
  | cons c cs ih =>
    rw [List.foldl_cons]
    cases i with
    | zero =>
      rw [fold_unchanged, stepPure_lookup]
      · rw [defAt] at hi
        rw [defAt, hi]
        simp
      · intro j e'
        rw [stepPure_sub]
        exact h (j + 1) e' (by omega)
    | succ i =>
      apply ih _ i
      · rw [stepPure_sub]; exact hi
      · intro j e' hij
        rw [stepPure_sub]
        exact h (j + 1) e' (by omega)

/-- Soundness and growth, for any segment name. -/
theorem buildCards_sound {upper : Str → Str} {seg : Str} {cards : List CodeCard}
    {st st' : BuildState} (h : buildCards upper seg st cards = .ok st') (tag seg' sub kind : Str) :
    ((lookup4 st.symtab tag seg' sub kind).isSome = true →
      (lookup4 st'.symtab tag seg' sub kind).isSome = true) ∧
    (∀ e, lookup4 st'.symtab tag seg' sub kind = some e →
      lookup4 st.symtab tag seg' sub kind = some e ∨
      seg' = seg ∧ ∃ i, defAt upper st.subseg cards i = some (tag, sub, kind, e)) := by
  unfold buildCards at h
  induction cards generalizing st with
  | nil => cases h; exact ⟨id, fun e he => Or.inl he⟩
  | cons c cs ih =>
    rw [List.foldlM_cons] at h
    cases h1 : buildStep upper seg st c with
    | error e => rw [h1] at h; cases h
    | ok st1 =>
      rw [h1] at h
      obtain ⟨hs, ht⟩ := buildStep_table h1
      obtain ⟨k1, k2⟩ := ih h
      constructor
      · intro hk
        apply k1
        rcases ht with e | ⟨tag', tt, o, -, e⟩
        · rw [e]; exact hk
        · rw [e, lookup4_put4]
          split
          · rfl
          · exact hk
      · intro e he
        rcases k2 e he with hl | ⟨e1, i, hi⟩
        · rcases ht with e2 | ⟨tag', tt, o, ha, e2⟩
          · rw [e2] at hl; exact Or.inl hl
          · rw [e2, lookup4_put4] at hl
            split at hl
            · rename_i hq
              obtain ⟨rfl, rfl, rfl, rfl⟩ := hq
              refine Or.inr ⟨rfl, 0, ?_⟩
              rw [defAt, ha]
              cases hl
              rfl
            · exact Or.inl hl
        · refine Or.inr ⟨e1, i + 1, ?_⟩
          rw [defAt, ← hs]
          exact hi

/-- The errors of the cards. -/
def errsOf (upper : Str → Str) (cards : List CodeCard) : List Diag :=
  cards.filterMap fun c => match actionOf upper c with
    | .err e l tt => some (reportOf c e l tt)
    | _ => none

theorem fold_errs (upper : Str → Str) (seg : Str) (cards : List CodeCard) (st : BuildState) :
    (cards.foldl (stepPure upper seg) st).errcount = st.errcount + (errsOf upper cards).length ∧
    (cards.foldl (stepPure upper seg) st).diags = st.diags ++ errsOf upper cards := by
  induction cards generalizing st with
  | nil => simp [errsOf]
  | cons c cs ih =>
    rw [List.foldl_cons, (ih _).1, (ih _).2]
    unfold errsOf
    rw [List.filterMap_cons]
    unfold stepPure
    cases ha : actionOf upper c with
    | skip => simp
    | def_ tag tt o => simp
    | err e l tt => simp [BuildState.report]; omega

end H800
