import Verif.Spec.Documents
import Verif.Props.Symbols
import Mathlib.Tactic.IntervalCases

/-!
C193, C194 and C195: tags, assignments and subsegments, as the manual of assembly language has them, and
the symbol table.
-/

namespace H800

open Spec

/-- `str.upper` leaves a text of the characters of Table I as it is. -/
def KeepsTableI (upper : Str → Str) : Prop := ∀ s : Str, (∀ x ∈ s, x ∈ tableI) → upper s = s

theorem tagChar_mem {x : Char} (h : TagChar x) : x ∈ tableI := by
  obtain ⟨-, -, c, -, -, hc⟩ := h
  exact List.mem_of_getElem? hc

theorem tagChar_ne {x : Char} (h : TagChar x) : x ≠ ',' ∧ x ≠ ' ' := by
  refine ⟨?_, h.1⟩
  rintro rfl
  exact absurd h (by decide +kernel)

theorem regText_chars {r : Str} (h : RegText r) : (∀ x ∈ r, x ∈ tableI) ∧ ',' ∉ r := by
  rcases h with h | h | ⟨k, hk, rfl⟩
  · have key : ∀ r ∈ regNames, (∀ x ∈ r, x ∈ tableI) ∧ ',' ∉ r := by decide +kernel
    exact key r h
  · have key : ∀ r ∈ aliasNames, (∀ x ∈ r, x ∈ tableI) ∧ ',' ∉ r := by decide +kernel
    exact key r h
  · have key : ∀ k < 32, (∀ x ∈ [Nat.digitChar (k / 10), Nat.digitChar (k % 10)], x ∈ tableI) ∧
        ',' ∉ [Nat.digitChar (k / 10), Nat.digitChar (k % 10)] := by decide +kernel
    exact key k hk

/-- C193, the property as stated: the labels accepted are the tags of the manual. -/
def C193_statement : Prop :=
  ∀ upper, KeepsTableI upper → ∀ l, Trimmed l →
    ((∃ r, checkLabel upper (cleanLabel l) = .ok r) ↔ LegalTag l)

/-- C193, what holds: symbolic tags, mask tags and special register tags are accepted, with the tag and
the letter before the comma (a blank without one). -/
theorem C193_accepted_partial (upper : Str → Str) (hu : KeepsTableI upper) (l : Str) (hl : Trimmed l) :
    (SymTag (l.filter (· ≠ ' ')) →
      checkLabel upper (cleanLabel l) = .ok (l.filter (· ≠ ' '), py " ")) ∧
    (∀ p ∈ ['F', 'S', 'B'], ∀ t, SymTag t → l.filter (· ≠ ' ') = p :: ',' :: t →
      checkLabel upper (cleanLabel l) = .ok (t, [p])) ∧
    (∀ r, RegText r → l.filter (· ≠ ' ') = 'Z' :: ',' :: r →
      checkLabel upper (cleanLabel l) = .ok (r, py "Z")) := by
  have hs : strip l = l := strip_of_decomp (a := []) (b := []) (by simp [Blank]) (by simp [Blank]) hl
    |> (by simpa using ·)
  rw [cleanLabel_eq hs]
  refine ⟨?_, ?_, ?_⟩
  · intro h
    rw [checkLabel_good]
    exact ⟨hu _ fun x hx => tagChar_mem (h.2.1 x hx), fun hc => (tagChar_ne (h.2.1 _ hc)).1 rfl,
      Or.inl ⟨rfl, rfl⟩⟩
  · intro p hp t h e
    rw [checkLabel_good, e]
    refine ⟨hu _ ?_, fun hc => (tagChar_ne (h.2.1 _ hc)).1 rfl, Or.inr ⟨p, ?_, rfl, rfl⟩⟩
    · intro x hx
      rcases List.mem_cons.1 hx with rfl | hx
      · have key : ∀ x ∈ ['F', 'S', 'B'], x ∈ tableI := by decide +kernel
        exact key x hp
      rcases List.mem_cons.1 hx with rfl | hx
      · decide +kernel
      · exact tagChar_mem (h.2.1 x hx)
    · have key : ∀ x ∈ ['F', 'S', 'B'], x ∈ ['B', 'F', 'S', 'Z'] := by decide
      exact key p hp
  · intro r h e
    obtain ⟨h1, h2⟩ := regText_chars h
    rw [checkLabel_good, e]
    refine ⟨hu _ ?_, h2, Or.inr ⟨'Z', by decide, rfl, rfl⟩⟩
    intro x hx
    rcases List.mem_cons.1 hx with rfl | hx
    · decide +kernel
    rcases List.mem_cons.1 hx with rfl | hx
    · decide +kernel
    · exact h1 x hx

/-- C193: link tags and out-of-sequence tags are refused as unsupported, whatever the tag. -/
theorem C193_unsupported_partial (upper : Str → Str) (hu : KeepsTableI upper) (l : Str) (hl : Trimmed l)
    (p : Char) (hp : p = 'L' ∨ p = 'X') (t : Str) (ht : SymTag t ∨ t = [])
    (e : l.filter (· ≠ ' ') = p :: ',' :: t) :
    checkLabel upper (cleanLabel l) = .error .unsupported := by
  have hs : strip l = l := strip_of_decomp (a := []) (b := []) (by simp [Blank]) (by simp [Blank]) hl
    |> (by simpa using ·)
  have hc : ∀ x ∈ t, x ∈ tableI ∧ x ≠ ',' := by
    rcases ht with h | rfl
    · exact fun x hx => ⟨tagChar_mem (h.2.1 x hx), (tagChar_ne (h.2.1 x hx)).1⟩
    · simp
  have hct : ',' ∉ t := fun h => (hc _ h).2 rfl
  rw [cleanLabel_eq hs, e]
  have hup : upper (p :: ',' :: t) = p :: ',' :: t := hu _ (by
    intro x hx
    rcases List.mem_cons.1 hx with rfl | hx
    · rcases hp with rfl | rfl <;> decide +kernel
    rcases List.mem_cons.1 hx with rfl | hx
    · decide +kernel
    · exact (hc x hx).1)
  have hpc : ',' ∉ [p] := by rcases hp with rfl | rfl <;> decide
  have hsp : pySplit ',' (p :: ',' :: t) = [[p], t] := by
    rw [show p :: ',' :: t = [p] ++ ',' :: t from rfl, pySplit_append hpc, pySplit_none hct]
  have hcnt : (p :: ',' :: t).count ',' = 1 := by
    rw [List.count_cons, List.count_cons, List.count_eq_zero_of_not_mem hct]
    rcases hp with rfl | rfl <;> decide
  unfold checkLabel
  rw [if_neg (by simpa using hup), if_pos (by simp), if_neg (by omega)]
  simp only [hsp]
  rcases hp with rfl | rfl <;> simp [TAG_PREFIXES]

/-- C193: which labels are accepted. Neither the length nor the characters of the tag matter, and after
`Z,` anything is accepted. -/
theorem C193_lax_partial (upper : Str → Str) (l : Str) (hl : Trimmed l) :
    (∃ r, checkLabel upper (cleanLabel l) = .ok r) ↔
      upper (l.filter (· ≠ ' ')) = l.filter (· ≠ ' ') ∧
        (',' ∉ l ∨ ∃ c ∈ ['B', 'F', 'S', 'Z'], ∃ t, ',' ∉ t ∧ l.filter (· ≠ ' ') = c :: ',' :: t) := by
  have hs : strip l = l := strip_of_decomp (a := []) (b := []) (by simp [Blank]) (by simp [Blank]) hl
    |> (by simpa using ·)
  have hcomma : ',' ∈ l.filter (· ≠ ' ') ↔ ',' ∈ l := by simp
  rw [cleanLabel_eq hs, ← hcomma]
  generalize l.filter (· ≠ ' ') = s
  constructor
  · rintro ⟨⟨tag, tt⟩, h⟩
    obtain ⟨h1, h2, ⟨rfl, -⟩ | ⟨c, hc, e, -⟩⟩ := (checkLabel_good upper s tag tt).1 h
    · exact ⟨h1, Or.inl h2⟩
    · exact ⟨h1, Or.inr ⟨c, hc, tag, h2, e⟩⟩
  · rintro ⟨h1, h2 | ⟨c, hc, t, ht, e⟩⟩
    · exact ⟨(s, py " "), (checkLabel_good _ _ _ _).2 ⟨h1, h2, Or.inl ⟨rfl, rfl⟩⟩⟩
    · exact ⟨(t, [c]), (checkLabel_good _ _ _ _).2 ⟨h1, ht, Or.inr ⟨c, hc, e, rfl⟩⟩⟩

/-- C193 fails both ways: a link tag is refused; a sum, a number, nine letters and a register that does
not exist are accepted. -/
theorem C193_refuted : ¬ C193_statement ∧
    (LegalTag (py "L,START") ∧ ∀ r, checkLabel id (cleanLabel (py "L,START")) ≠ .ok r) ∧
    ∀ l ∈ [py "A+B", py "123", py "ABCDEFGHI", py "Z,X9"], ¬ LegalTag l ∧
      ∃ r, checkLabel id (cleanLabel l) = .ok r := by
  have h1 : LegalTag (py "L,START") ∧ ∀ r, checkLabel id (cleanLabel (py "L,START")) ≠ .ok r := by
    refine ⟨Or.inr (Or.inl ⟨'L', by decide, py "START", by decide +kernel, by decide +kernel⟩), ?_⟩
    rw [C193_unsupported_partial id (fun _ _ => rfl) (py "L,START") (by unfold Trimmed; decide) 'L'
      (Or.inl rfl) (py "START") (Or.inl (by decide +kernel)) (by decide +kernel)]
    intro r h; cases h
  refine ⟨?_, h1, ?_⟩
  · intro h
    obtain ⟨r, hr⟩ := (h id (fun _ _ => rfl) (py "L,START") (by unfold Trimmed; decide)).2 h1.1
    exact h1.2 r hr
  · have nosym : ∀ s t : Str, ∀ c d e : Char, e ≠ ',' → c :: e :: s = d :: ',' :: t → False := by
      intro s t c d e he h
      simp only [List.cons.injEq] at h
      exact he h.2.1
    have aux : ∀ l ∈ [py "A+B", py "123", py "ABCDEFGHI"], ¬ SymTag (l.filter (· ≠ ' ')) ∧ ',' ∉ l := by
      decide +kernel
    have plain : ∀ l ∈ [py "A+B", py "123", py "ABCDEFGHI"], ¬ LegalTag l ∧
        ∃ r, checkLabel id (cleanLabel l) = .ok r := by
      intro l hl
      obtain ⟨h2, h3⟩ := aux l hl
      have h3' : ',' ∉ l.filter (· ≠ ' ') := fun h => h3 (List.mem_filter.1 h).1
      refine ⟨?_, ?_⟩
      · rintro (h | ⟨p, -, t, -, e⟩ | e | ⟨r, -, e⟩)
        · exact h2 h
        · exact h3' (by rw [e]; simp)
        · exact h3' (by rw [e]; decide)
        · exact h3' (by rw [e]; simp)
      · have tr : ∀ l ∈ [py "A+B", py "123", py "ABCDEFGHI"], Trimmed l := by unfold Trimmed; decide
        exact (C193_lax_partial id l (tr l hl)).2 ⟨rfl, Or.inl h3⟩
    intro l hl
    simp only [List.mem_cons, List.not_mem_nil, or_false] at hl
    rcases hl with rfl | rfl | rfl | rfl
    · exact plain _ (by decide)
    · exact plain _ (by decide)
    · exact plain _ (by decide)
    · refine ⟨?_, (C193_lax_partial id (py "Z,X9") (by unfold Trimmed; decide)).2 ⟨rfl, Or.inr
        ⟨'Z', by decide, py "X9", by decide, by decide +kernel⟩⟩⟩
      have e0 : (py "Z,X9").filter (· ≠ ' ') = 'Z' :: ',' :: py "X9" := by decide +kernel
      rintro (h | ⟨p, hp, t, -, e⟩ | e | ⟨r, hr, e⟩)
      · revert h; decide +kernel
      · rw [e0] at e
        cases e
        revert hp; decide
      · revert e; decide +kernel
      · rw [e0] at e
        cases e
        revert hr; decide +kernel

/-- A mask tag with spaces, a register by number and by name. -/
example : SymTag (py "RIGHT2") ∧ Trimmed (py "S, RIGHT 2") ∧
    (py "S, RIGHT 2").filter (· ≠ ' ') = 'S' :: ',' :: py "RIGHT2" ∧ RegText (py "11") ∧
    RegText (py "X3") ∧ KeepsTableI asciiUpper := by
  refine ⟨by decide +kernel, by unfold Trimmed; decide, by decide +kernel, by decide +kernel,
    by decide +kernel, ?_⟩
  intro s h
  unfold asciiUpper
  conv_rhs => rw [← List.map_id s]
  apply List.map_congr_left
  intro x hx
  have key : ∀ x ∈ tableI, Char.toUpper x = id x := by decide +kernel
  exact key x (h x hx)

/-! ### Assignments and subsegments -/

/-- A deck with a common subsegment, a SETLOC without subsegment and a TAS. -/
def docFs : FileSystem := fun f =>
  if f = py "D.arg" then some (py
    "                   SETLOC,1C\n        A          TN\n                   SETLOC\n        B          TX\n        C          TAS\n")
  else none

/-- The lines of the deck. -/
def docOut : List Src :=
  [⟨py "D.arg", 1, py "                   SETLOC,1C\n"⟩, ⟨py "D.arg", 2, py "        A          TN\n"⟩,
   ⟨py "D.arg", 3, py "                   SETLOC\n"⟩, ⟨py "D.arg", 4, py "        B          TX\n"⟩,
   ⟨py "D.arg", 5, py "        C          TAS\n"⟩]

theorem docFs_expands : Expands docFs (py "D.arg") docOut := by
  refine ⟨_, rfl, ?_⟩
  have : ∀ {text : Str} (ls : List Str), readlines text = ls →
      Expand docFs (py "D.arg") 1 ls docOut →
      Expand docFs (py "D.arg") 1 (readlines text) docOut := fun ls h1 h2 => h1 ▸ h2
  refine this (docOut.map (·.text)) (by decide) ?_
  iterate 5 refine .plain (by decide) (by decide) ?_
  exact .nil _ _

theorem docFs_build : ∃ b, buildSymbolTable asciiUpper docFs 10 (py "D.arg") [] = .ok b ∧
    b.errcount = 0 ∧ b.symtab.map (·.1) = [py "A", py "B", py "C"] ∧
    (∀ tag ∈ [py "A", py "B", py "C"],
      ((dget b.symtab tag).bind (dget · (py "D"))).bind (dget · (py "1")) = none) ∧
    (lookup4 b.symtab (py "A") (py "D") (py "1C") (py "simple")).isSome = true ∧
    (lookup4 b.symtab (py "B") (py "D") (py "0") (py "simple")).isSome = true ∧
    (lookup4 b.symtab (py "C") (py "D") (py "0") (py "simple")).isSome = true ∧
    lookup4 b.symtab (py "C") (py "D") (py "0") (py "complex") = none := by
  refine ⟨_, rfl, ?_⟩
  decide

theorem doc_plain : BeforeFirst '.' (py "D.arg") (py "D") ∧ PlainSeg (py "D") ∧
    PlainTable ([] : Symtab) :=
  ⟨⟨by decide, Or.inr ⟨py "arg", rfl⟩⟩, by unfold PlainSeg; decide, by
    intro tag segs h; simp [dget] at h⟩

/-- Lines 2, 4 and 5 of the deck define A, B and C. -/
theorem doc_defines : (∀ l s tag sub, (l, s, tag, sub) ∈
      [(1, docOut[1], py "A", py "1C"), (3, docOut[3], py "B", py "0"), (4, docOut[4], py "C", py "0")] →
    DefinesAt asciiUpper docOut l s tag (py " ") sub (py "simple")) := by
  have key : ∀ l s tag sub, docOut[l]? = some s →
      defAt asciiUpper (py "1") (docOut.map srcCard) l =
        some (tag, sub, py "simple", entryOf (srcCard s) (py " ")) →
      DefinesAt asciiUpper docOut l s tag (py " ") sub (py "simple") := by
    intro l s tag sub hs h
    obtain ⟨s', tt, h1, e⟩ := (defAt_iff asciiUpper docOut l tag sub (py "simple") _).1 h
    have h0 := h1.1
    rw [hs] at h0
    cases h0
    have ht : py " " = tt := congrArg SymEntry.tagtype e
    rw [ht]
    exact h1
  intro l s tag sub h
  simp only [List.mem_cons, List.not_mem_nil, or_false, Prod.mk.injEq] at h
  rcases h with ⟨rfl, rfl, rfl, rfl⟩ | ⟨rfl, rfl, rfl, rfl⟩ | ⟨rfl, rfl, rfl, rfl⟩ <;>
    exact key _ _ _ _ rfl (by decide)

/-- C194, the property as stated: a tag assigned by ASSIGN or TAS is in the table as a complex
definition. -/
def C194_statement : Prop :=
  ∀ (upper : Str → Str) (fs : FileSystem) (fuel : Nat) (file seg : Str) (t : Symtab) (b : BuildState)
    (out : List Src) (i : Nat) (s : Src) (l tag tagtype sub o : Str),
    BeforeFirst '.' file seg → PlainSeg seg → PlainTable t →
    buildSymbolTable upper fs fuel file t = .ok b → Expands fs file out →
    out[i]? = some s → ¬ Starred s → HasLabel s l → GoodLabel upper l tag tagtype → HasOp s o →
    Assigns o → Current out i sub → ∃ e, Recorded b.symtab tag seg sub (py "complex") e

/-- C194, what holds: a tag assigned by ASSIGN is. -/
theorem C194_assign_partial (upper : Str → Str) (fs : FileSystem) (fuel : Nat) (file seg : Str)
    (t : Symtab) (b : BuildState) (out : List Src) (i : Nat) (s : Src) (l tag tagtype sub : Str)
    (hseg : BeforeFirst '.' file seg) (hp : PlainSeg seg) (ht : PlainTable t)
    (hb : buildSymbolTable upper fs fuel file t = .ok b) (hout : Expands fs file out)
    (hs : out[i]? = some s) (h8 : ¬ Starred s) (hl : HasLabel s l)
    (hg : GoodLabel upper l tag tagtype) (ho : HasOp s (py "ASSIGN")) (hc : Current out i sub) :
    ∃ e, Recorded b.symtab tag seg sub (py "complex") e := by
  obtain ⟨j, s', tt', e, -, -, -, h, -⟩ := C68_complete upper fs fuel file t seg hseg hp ht b hb out hout
    i s tag tagtype sub (py "complex") ⟨hs, h8, ⟨l, hl, hg⟩, ⟨_, ho, by simp [kindOf]⟩, hc⟩
  exact ⟨e, h⟩

/-- C194: a tag assigned by TAS is in the table as a simple definition, and as a complex one only if
an ASSIGN line in the same subsegment assigns it too or it was there before. -/
theorem C194_tas_partial (upper : Str → Str) (fs : FileSystem) (fuel : Nat) (file seg : Str)
    (t : Symtab) (b : BuildState) (out : List Src) (i : Nat) (s : Src) (l tag tagtype sub : Str)
    (hseg : BeforeFirst '.' file seg) (hp : PlainSeg seg) (ht : PlainTable t)
    (hb : buildSymbolTable upper fs fuel file t = .ok b) (hout : Expands fs file out)
    (hs : out[i]? = some s) (h8 : ¬ Starred s) (hl : HasLabel s l)
    (hg : GoodLabel upper l tag tagtype) (ho : HasOp s (py "TAS")) (hc : Current out i sub) :
    (∃ e, Recorded b.symtab tag seg sub (py "simple") e) ∧
    ∀ e, Recorded b.symtab tag seg sub (py "complex") e →
      Recorded t tag seg sub (py "complex") e ∨
      ∃ j s' l' tt, out[j]? = some s' ∧ ¬ Starred s' ∧ HasLabel s' l' ∧ GoodLabel upper l' tag tt ∧
        HasOp s' (py "ASSIGN") ∧ Current out j sub ∧ Describes s' tt e := by
  refine ⟨?_, ?_⟩
  · obtain ⟨j, s', tt', e, -, -, -, h, -⟩ := C68_complete upper fs fuel file t seg hseg hp ht b hb out
      hout i s tag tagtype sub (py "simple")
      ⟨hs, h8, ⟨l, hl, hg⟩, ⟨_, ho, by unfold kindOf; rw [if_neg (by decide)]⟩, hc⟩
    exact ⟨e, h⟩
  · intro e he
    obtain ⟨out', ho', h⟩ := C69_sound upper fs fuel file t b hb
    obtain rfl : out = out' := by
      obtain ⟨x, hx, hx2⟩ := hout
      obtain ⟨y, hy, hy2⟩ := ho'
      rw [hx] at hy; cases hy
      exact expand_unique hx2 _ hy2
    rcases h tag seg sub _ e he with h | ⟨-, j, s', tt, ⟨h1, h2, ⟨l', h3, h4⟩, ⟨o, h5, h6⟩, h7⟩, hd⟩
    · exact Or.inl h
    · have : o = py "ASSIGN" := by
        unfold kindOf at h6
        split at h6
        · assumption
        · exact absurd h6 (by decide)
      subst this
      exact Or.inr ⟨j, s', l', tt, h1, h2, h3, h4, h5, h7, hd⟩

/-- C194 fails for the TAS of the deck. -/
theorem C194_refuted : ¬ C194_statement := by
  intro h
  obtain ⟨b, hb, -, -, -, -, -, -, h0⟩ := docFs_build
  obtain ⟨h1, h2, ⟨l, h3, h4⟩, -, h7⟩ := doc_defines 4 docOut[4] (py "C") (py "0") (by simp)
  have hop : HasOp docOut[4] (py "TAS") := (op_iff _ _).1 (by decide)
  obtain ⟨e, he⟩ := h asciiUpper docFs 10 (py "D.arg") (py "D") [] b docOut 4 docOut[4] l (py "C")
    (py " ") (py "0") (py "TAS") doc_plain.1 doc_plain.2.1 doc_plain.2.2 hb docFs_expands h1 h2 h3 h4
    hop (Or.inr rfl) h7
  rw [recorded_iff, h0] at he
  cases he

theorem digit_cases {d : Char} (h1 : '1' ≤ d) (h7 : d ≤ '7') :
    d ∈ ['1', '2', '3', '4', '5', '6', '7'] := by
  have a : 49 ≤ d.toNat := h1
  have b : d.toNat ≤ 55 := h7
  have key : ∀ n, 49 ≤ n → n ≤ 55 → Char.ofNat n ∈ ['1', '2', '3', '4', '5', '6', '7'] := by
    intro n h h'
    interval_cases n <;> decide
  have := key d.toNat a b
  rwa [Char.ofNat_toNat] at this

theorem sets_op {s : Src} {o : Str} (h8 : ¬ Starred s) (ho : HasOp s o)
    (hp : hasPrefix (py "SETLOC") o = true) : Sets s (setlocName o) :=
  ⟨h8, o, ho, (setloc_iff _ _).2 ⟨hp, rfl⟩⟩

/-- C195, the property as stated: in a deck whose SETLOCs are written as the manual says, the tag
defined by a line is in the table under the subsegment that the manual gives the line. -/
def C195_statement : Prop :=
  ∀ (upper : Str → Str) (fs : FileSystem) (fuel : Nat) (file seg : Str) (t : Symtab) (b : BuildState)
    (out : List Src) (i : Nat) (s : Src) (l tag tagtype o : Str) (d : Char),
    BeforeFirst '.' file seg → PlainSeg seg → PlainTable t →
    buildSymbolTable upper fs fuel file t = .ok b → Expands fs file out → ManualSetlocs out →
    out[i]? = some s → ¬ Starred s → HasLabel s l → GoodLabel upper l tag tagtype → HasOp s o →
    ManualCurrent out i d → ∃ kind e, Recorded b.symtab tag seg [d] kind e

/-- C195, what holds: it is if every SETLOC specifies a subsegment that is not common. -/
theorem C195_plain_partial (upper : Str → Str) (fs : FileSystem) (fuel : Nat) (file seg : Str)
    (t : Symtab) (b : BuildState) (out : List Src) (i : Nat) (s : Src) (l tag tagtype o : Str) (d : Char)
    (hseg : BeforeFirst '.' file seg) (hp : PlainSeg seg) (ht : PlainTable t)
    (hb : buildSymbolTable upper fs fuel file t = .ok b) (hout : Expands fs file out)
    (hplain : ∀ s ∈ out, ∀ o r, ¬ Starred s → HasOp s o → o = py "SETLOC" ++ r →
      ∃ d, '1' ≤ d ∧ d ≤ '7' ∧ r = [',', d])
    (hs : out[i]? = some s) (h8 : ¬ Starred s) (hl : HasLabel s l)
    (hg : GoodLabel upper l tag tagtype) (ho : HasOp s o) (hc : ManualCurrent out i d) :
    ∃ kind e, Recorded b.symtab tag seg [d] kind e := by
  have hname : ∀ d, '1' ≤ d → d ≤ '7' → setlocName (py "SETLOC," ++ [d]) = [d] := by
    intro d h1 h7
    have key : ∀ d ∈ ['1', '2', '3', '4', '5', '6', '7'],
        setlocName (py "SETLOC," ++ [d]) = [d] := by decide
    exact key d (digit_cases h1 h7)
  have hms : ∀ s ∈ out, ∀ sub, Sets s sub → ∃ d, sub = [d] ∧ ManualSets s d := by
    rintro s hs sub ⟨h8, o, ho, hsl⟩
    obtain ⟨hpre, rfl⟩ := (setloc_iff _ _).1 hsl
    obtain ⟨r, rfl⟩ := hasPrefix_iff.1 hpre
    obtain ⟨d, h1, h7, rfl⟩ := hplain s hs _ r h8 ho rfl
    exact ⟨d, hname d h1 h7, h8, h1, h7, Or.inl ho⟩
  have hsm : ∀ s ∈ out, ∀ d, ManualSets s d → Sets s [d] := by
    rintro s hs d ⟨h8, h1, h7, ho | ho⟩
    · rw [← hname d h1 h7]
      exact sets_op h8 ho rfl
    · obtain ⟨d', -, -, e⟩ := hplain s hs _ [',', d, 'C'] h8 ho rfl
      simp at e
  have hcur : Current out i [d] := by
    rcases hc with ⟨j, s', hj, h1, h2, h3⟩ | ⟨rfl, h3⟩
    · refine Or.inl ⟨j, s', hj, h1, hsm s' (List.mem_of_getElem? h1) d h2, ?_⟩
      intro k s'' hk hk' hks sub hsub
      obtain ⟨d', -, hd⟩ := hms s'' (List.mem_of_getElem? hks) sub hsub
      exact h3 k s'' hk hk' hks d' hd
    · refine Or.inr ⟨rfl, ?_⟩
      intro k s'' hk hks sub hsub
      obtain ⟨d', -, hd⟩ := hms s'' (List.mem_of_getElem? hks) sub hsub
      exact h3 k s'' hk hks d' hd
  obtain ⟨j, s', tt', e, -, -, -, h, -⟩ := C68_complete upper fs fuel file t seg hseg hp ht b hb out hout
    i s tag tagtype [d] (kindOf o) ⟨hs, h8, ⟨l, hl, hg⟩, ⟨o, ho, rfl⟩, hcur⟩
  exact ⟨_, e, h⟩

/-- C195: after a SETLOC that specifies common subsegment `d`, until the next SETLOC, the tags are under
`d` followed by C; after one without subsegment they are under `0`, which is no subsegment. -/
theorem C195_other_partial (upper : Str → Str) (fs : FileSystem) (fuel : Nat) (file seg : Str)
    (t : Symtab) (b : BuildState) (out : List Src) (i j : Nat) (s s0 : Src) (l tag tagtype o o0 sub : Str)
    (hseg : BeforeFirst '.' file seg) (hp : PlainSeg seg) (ht : PlainTable t)
    (hb : buildSymbolTable upper fs fuel file t = .ok b) (hout : Expands fs file out)
    (hs : out[i]? = some s) (h8 : ¬ Starred s) (hl : HasLabel s l)
    (hg : GoodLabel upper l tag tagtype) (ho : HasOp s o)
    (hj : j ≤ i) (hs0 : out[j]? = some s0) (h80 : ¬ Starred s0) (ho0 : HasOp s0 o0)
    (hsub : (∃ d, '1' ≤ d ∧ d ≤ '7' ∧ o0 = py "SETLOC," ++ [d, 'C'] ∧ sub = [d, 'C']) ∨
      (o0 = py "SETLOC" ∧ sub = py "0"))
    (hlast : ∀ k s', j < k → k ≤ i → out[k]? = some s' → ¬ Starred s' →
      ∀ r, ¬ HasOp s' (py "SETLOC" ++ r)) :
    ∃ kind e, Recorded b.symtab tag seg sub kind e := by
  have hset : Sets s0 sub := by
    rcases hsub with ⟨d, h1, h7, rfl, rfl⟩ | ⟨rfl, rfl⟩
    · have key : ∀ d ∈ ['1', '2', '3', '4', '5', '6', '7'],
          setlocName (py "SETLOC," ++ [d, 'C']) = [d, 'C'] := by decide
      rw [← key d (digit_cases h1 h7)]
      exact sets_op h80 ho0 rfl
    · exact sets_op h80 ho0 rfl
  have hcur : Current out i sub := by
    refine Or.inl ⟨j, s0, hj, hs0, hset, ?_⟩
    rintro k s' hk hk' hks sub' ⟨h8', o', ho', hsl⟩
    obtain ⟨⟨r, rfl⟩, -⟩ := hsl
    exact hlast k s' hk hk' hks h8' r ho'
  obtain ⟨j, s', tt', e, -, -, -, h, -⟩ := C68_complete upper fs fuel file t seg hseg hp ht b hb out hout
    i s tag tagtype sub (kindOf o) ⟨hs, h8, ⟨l, hl, hg⟩, ⟨o, ho, rfl⟩, hcur⟩
  exact ⟨_, e, h⟩

/-- The SETLOCs of the deck are written as the manual says, and by it all lines are in subsegment 1. -/
theorem doc_setlocs : ManualSetlocs docOut ∧ ∀ i, ManualCurrent docOut i '1' := by
  have hops : docOut.map (fun s => (srcCard s).operation) =
      [some (py "SETLOC,1C"), some (py "TN"), some (py "SETLOC"), some (py "TX"), some (py "TAS")] := by
    decide
  have h0 : ManualSets docOut[0] '1' := by
    refine ⟨by unfold Starred; decide, by decide, by decide, Or.inr ((op_iff _ _).1 (by decide))⟩
  refine ⟨?_, ?_⟩
  · intro s hs o r _ ho e
    subst e
    rw [← op_iff] at ho
    have hm : (srcCard s).operation ∈ docOut.map (fun s => (srcCard s).operation) :=
      List.mem_map.2 ⟨s, hs, rfl⟩
    rw [hops, ho] at hm
    simp at hm
    rcases hm with h | h
    · have key : ∀ s ∈ docOut, (srcCard s).operation = some (py "SETLOC,1C") → s = docOut[0] := by
        decide
      subst h
      rw [key s hs ho]
      exact Or.inr ⟨'1', h0⟩
    · exact Or.inl h
  · intro i
    refine Or.inl ⟨0, docOut[0], Nat.zero_le _, rfl, h0, ?_⟩
    rintro k s hk - hks d ⟨-, h1, h7, ho⟩
    have hd := digit_cases h1 h7
    rw [← op_iff, ← op_iff] at ho
    have hk' : (docOut.map (fun s => (srcCard s).operation))[k]? = some ((srcCard s).operation) := by
      rw [List.getElem?_map, hks]; rfl
    rw [hops] at hk'
    have key : ∀ o ∈ [some (py "TN"), some (py "SETLOC"), some (py "TX"), some (py "TAS")],
        ∀ d ∈ ['1', '2', '3', '4', '5', '6', '7'],
          ¬ (o = some (py "SETLOC," ++ [d]) ∨ o = some (py "SETLOC," ++ [d, 'C'])) := by decide
    obtain ⟨n, rfl⟩ : ∃ n, k = n + 1 := ⟨k - 1, by omega⟩
    rw [List.getElem?_cons_succ] at hk'
    exact key _ (List.mem_of_getElem? hk') d hd ho

/-- C195 fails for the deck, both after `SETLOC,1C` and after `SETLOC`. -/
theorem C195_refuted : ¬ C195_statement := by
  intro h
  obtain ⟨b, hb, -, -, h0, -⟩ := docFs_build
  obtain ⟨h1, h2, ⟨l, h3, h4⟩, ⟨o, h5, -⟩, -⟩ := doc_defines 1 docOut[1] (py "A") (py "1C") (by simp)
  obtain ⟨kind, e, d1, d2, d3, g1, g2, g3, -⟩ := h asciiUpper docFs 10 (py "D.arg") (py "D") [] b docOut
    1 docOut[1] l (py "A") (py " ") o '1' doc_plain.1 doc_plain.2.1 doc_plain.2.2 hb docFs_expands
    doc_setlocs.1 h1 h2 h3 h4 h5 (doc_setlocs.2 1)
  have := h0 (py "A") (by simp)
  rw [g1, Option.bind_some, g2, Option.bind_some] at this
  rw [this] at g3
  cases g3

/-- The deck: the tags of subsegment 1 are in subsegments 1C and 0 of the table. -/
example : (∀ i, ManualCurrent docOut i '1') ∧
    DefinesAt asciiUpper docOut 1 docOut[1] (py "A") (py " ") (py "1C") (py "simple") ∧
    DefinesAt asciiUpper docOut 3 docOut[3] (py "B") (py " ") (py "0") (py "simple") :=
  ⟨doc_setlocs.2, doc_defines 1 _ _ _ (by simp), doc_defines 3 _ _ _ (by simp)⟩

/-- The deck of C68 has plain SETLOCs only, and line 6 is in subsegment 2. -/
example : (∀ s ∈ symOut, ∀ o r, ¬ Starred s → HasOp s o → o = py "SETLOC" ++ r →
      ∃ d, '1' ≤ d ∧ d ≤ '7' ∧ r = [',', d]) ∧ ManualCurrent symOut 5 '2' := by
  have hops : ∀ s ∈ symOut, (srcCard s).operation ∈
      [some (py "TN"), some (py "TX"), some (py "ASSIGN"), some (py "SETLOC,2")] := by decide
  refine ⟨?_, ?_⟩
  · rintro s hs o r - ho rfl
    have := hops s hs
    rw [(op_iff _ _).2 ho] at this
    simp at this
    exact ⟨'2', by decide, by decide, this⟩
  · refine Or.inl ⟨4, symOut[4], by omega, rfl, ⟨by unfold Starred; decide, by decide, by decide,
      Or.inl ((op_iff _ _).1 (by decide))⟩, ?_⟩
    rintro k s hk hk' hks d ⟨-, -, -, ho⟩
    obtain rfl : k = 5 := by omega
    rw [← op_iff, ← op_iff] at ho
    cases hks
    have h5 : (srcCard ⟨py "T.arg", 6, py "        S,A        ASSIGN\n"⟩).operation =
      some (py "ASSIGN") := by decide
    rw [h5] at ho
    simp at ho

end H800
