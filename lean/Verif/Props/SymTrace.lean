import Verif.Spec.Faults
import Verif.Props.SymTools

/-!
Properties C146 and C147: what is wrong with the lines in error, and all that the symbol tools print.
-/

namespace H800

open Spec

/-! ### Auxiliary facts -/

theorem checkLabel_error (upper : Str → Str) (s : Str) (e : SymErr) :
    checkLabel upper s = .error e ↔
      match e with
      | .case => upper s ≠ s
      | .commas => upper s = s ∧ 2 ≤ s.count ','
      | .tagPrefix => upper s = s ∧ ∃ p t, s = p ++ ',' :: t ∧ ',' ∉ p ∧ ',' ∉ t ∧
          p ∉ [['B'], ['F'], ['L'], ['S'], ['X'], ['Z']]
      | .unsupported => upper s = s ∧ ∃ p t, s = p ++ ',' :: t ∧ ',' ∉ t ∧ p ∈ [['L'], ['X']]
      | .noOperation => False
      | .multiple => False := by
  unfold checkLabel
  by_cases hu : upper s = s
  · rw [if_neg (by simpa using hu)]
    simp only [hu, true_and, ne_eq, not_true_eq_false]
    by_cases hc : ',' ∈ s
    · rw [if_pos (contains_comma.2 hc)]
      obtain ⟨p, r, es, hp⟩ := exists_first hc
      have hcount : s.count ',' = r.count ',' + 1 := by
        rw [es, List.count_append, List.count_eq_zero_of_not_mem hp]; simp
      have split : ∀ p' t', s = p' ++ ',' :: t' → ',' ∉ p' → p' = p ∧ t' = r := by
        intro p' t' e' h'
        have q1 : splitFirst s ',' = p := beforeFirst_unique ⟨hp, Or.inr ⟨r, es⟩⟩
        have q2 : splitFirst s ',' = p' := beforeFirst_unique ⟨h', Or.inr ⟨t', e'⟩⟩
        have q : p' = p := q2.symm.trans q1
        subst q
        refine ⟨rfl, ?_⟩
        have := es.symm.trans e'
        simpa using this.symm
      have hLX : ∀ p' ∈ [['L'], ['X']], ',' ∉ p' := by decide
      by_cases hr : ',' ∈ r
      · have h2 : 2 ≤ s.count ',' := by have := List.count_pos_iff.2 hr; omega
        rw [if_pos (by omega)]
        constructor
        · intro h; cases h; exact h2
        · intro h
          cases e with
          | case => exact absurd h id
          | commas => rfl
          | tagPrefix =>
            obtain ⟨p', t', e', h1, h3, -⟩ := h
            obtain ⟨-, rfl⟩ := split p' t' e' h1
            exact absurd hr h3
          | unsupported =>
            obtain ⟨p', t', e', h1, h3⟩ := h
            obtain ⟨-, rfl⟩ := split p' t' e' (hLX p' h3)
            exact absurd hr h1
          | noOperation => exact absurd h id
          | multiple => exact absurd h id
      · have h1c : s.count ',' = 1 := by rw [hcount, List.count_eq_zero_of_not_mem hr]
        rw [if_neg (by omega)]
        have h0 : (pySplit ',' s).getD 0 [] = p := by rw [es, pySplit_append hp]; rfl
        have h1 : (pySplit ',' s).getD 1 [] = r := by rw [es, pySplit_append hp, pySplit_none hr]; rfl
        simp only [h0, h1]
        have six : TAG_PREFIXES.contains p = true ↔ p ∈ [['B'], ['F'], ['L'], ['S'], ['X'], ['Z']] := by
          rw [List.contains_iff_mem]
          exact Iff.rfl
        have two : [py "L", py "X"].contains p = true ↔ p ∈ [['L'], ['X']] := by
          rw [List.contains_iff_mem]
        have sub : ∀ p' ∈ [['L'], ['X']], p' ∈ [['B'], ['F'], ['L'], ['S'], ['X'], ['Z']] := by decide
        by_cases h6 : p ∈ [['B'], ['F'], ['L'], ['S'], ['X'], ['Z']]
        · rw [if_neg (by rw [six]; exact not_not.2 h6)]
          by_cases h2 : p ∈ [['L'], ['X']]
          · rw [if_pos (two.2 h2)]
            constructor
            · intro h; cases h; exact ⟨p, r, es, hr, h2⟩
            · intro h
              cases e with
              | case => exact absurd h id
              | commas => simp only at h; omega
              | tagPrefix =>
                obtain ⟨p', t', e', k1, -, k3⟩ := h
                obtain ⟨rfl, -⟩ := split p' t' e' k1
                exact absurd h6 k3
              | unsupported => rfl
              | noOperation => exact absurd h id
              | multiple => exact absurd h id
          · rw [if_neg (by rw [two]; exact h2)]
            constructor
            · intro h; cases h
            · intro h
              exfalso
              cases e with
              | case => exact h
              | commas => simp only at h; omega
              | tagPrefix =>
                obtain ⟨p', t', e', k1, -, k3⟩ := h
                obtain ⟨rfl, -⟩ := split p' t' e' k1
                exact absurd h6 k3
              | unsupported =>
                obtain ⟨p', t', e', k1, k3⟩ := h
                obtain ⟨rfl, -⟩ := split p' t' e' (hLX p' k3)
                exact h2 k3
              | noOperation => exact h
              | multiple => exact h
        · rw [if_pos (by rw [six]; exact h6)]
          constructor
          · intro h; cases h; exact ⟨p, r, es, hp, hr, h6⟩
          · intro h
            cases e with
            | case => exact absurd h id
            | commas => simp only at h; omega
            | tagPrefix => rfl
            | unsupported =>
              obtain ⟨p', t', e', k1, k3⟩ := h
              obtain ⟨rfl, -⟩ := split p' t' e' (hLX p' k3)
              exact absurd (sub _ k3) h6
            | noOperation => exact absurd h id
            | multiple => exact absurd h id
    · rw [if_neg (by rw [contains_comma]; exact hc)]
      have h0 : s.count ',' = 0 := List.count_eq_zero_of_not_mem hc
      constructor
      · intro h; cases h
      · intro h
        exfalso
        cases e with
        | case => exact h
        | commas => simp only at h; omega
        | tagPrefix =>
          obtain ⟨p', t', e', -⟩ := h
          exact hc (by rw [e']; simp)
        | unsupported =>
          obtain ⟨p', t', e', -⟩ := h
          exact hc (by rw [e']; simp)
        | noOperation => exact h
        | multiple => exact h
  · rw [if_pos hu]
    constructor
    · intro h; cases h; exact hu
    · intro h
      cases e with
      | case => rfl
      | commas => exact absurd h.1 hu
      | tagPrefix => exact absurd h.1 hu
      | unsupported => exact absurd h.1 hu
      | noOperation => exact absurd h id
      | multiple => exact absurd h id

theorem action_fault (upper : Str → Str) (s : Src) (e : SymErr) (l : Str) :
    (∃ tt, actionOf upper (srcCard s) = .err e l tt) ↔ Fault upper s e l := by
  unfold actionOf Fault
  rw [← starred_iff]
  by_cases h8 : (srcCard s).column8 = some (py "*")
  · simp [h8]
  · simp only [h8, not_false_eq_true, true_and, if_false]
    cases hl : (srcCard s).label with
    | none => simp only [← label_iff, hl]; simp
    | some l₀ =>
      have hL := (label_iff s l₀).1 hl
      obtain ⟨hst, hne⟩ := hasLabel_strip hL
      have uniq : ∀ l', HasLabel s l' → l' = l₀ := by
        intro l' h1
        rw [← label_iff, hl] at h1; cases h1; rfl
      cases l₀ with
      | nil => exact absurd rfl hne
      | cons x xs =>
        simp only [cleanLabel_eq hst]
        have hcl := cleanLabel_eq hst
        cases hk : checkLabel upper ((x :: xs).filter (· ≠ ' ')) with
        | error e' =>
          have hf := (checkLabel_error upper _ e').1 hk
          constructor
          · rintro ⟨tt, h⟩
            cases h
            refine ⟨x :: xs, hL, rfl, ?_⟩
            cases e <;> first | exact hf | exact absurd hf id
          · rintro ⟨l', h1, rfl, h2⟩
            obtain rfl := uniq l' h1
            have : checkLabel upper ((x :: xs).filter (· ≠ ' ')) = .error e ∨ e = .noOperation := by
              cases e with
              | noOperation => exact Or.inr rfl
              | multiple => exact absurd h2 id
              | case => exact Or.inl ((checkLabel_error upper _ .case).2 h2)
              | commas => exact Or.inl ((checkLabel_error upper _ .commas).2 h2)
              | tagPrefix => exact Or.inl ((checkLabel_error upper _ .tagPrefix).2 h2)
              | unsupported => exact Or.inl ((checkLabel_error upper _ .unsupported).2 h2)
            rcases this with h | rfl
            · rw [hk] at h; cases h; exact ⟨_, rfl⟩
            · obtain ⟨⟨tag, tt, hg⟩, -⟩ := h2
              rw [← goodLabel_iff upper hst, hcl, hk] at hg
              cases hg
        | ok p =>
          obtain ⟨tag, tt⟩ := p
          simp only
          have nofault : ∀ e, checkLabel upper ((x :: xs).filter (· ≠ ' ')) ≠ .error e := by
            intro e h; rw [hk] at h; cases h
          have hgood : GoodLabel upper (x :: xs) tag tt := by
            rw [← goodLabel_iff upper hst, hcl, hk]
          constructor
          · rintro ⟨tt', h⟩
            cases ho : (srcCard s).operation with
            | none =>
              rw [ho] at h
              cases h
              refine ⟨x :: xs, hL, rfl, ⟨tag, tt, hgood⟩, ?_⟩
              intro o h
              rw [← op_iff, ho] at h; cases h
            | some o => rw [ho] at h; cases h
          · rintro ⟨l', h1, rfl, h2⟩
            obtain rfl := uniq l' h1
            cases e with
            | noOperation =>
              cases ho : (srcCard s).operation with
              | none => exact ⟨_, rfl⟩
              | some o => exact absurd ((op_iff s o).1 ho) (h2.2 o)
            | multiple => exact absurd h2 id
            | case => exact absurd ((checkLabel_error upper _ .case).2 h2) (nofault _)
            | commas => exact absurd ((checkLabel_error upper _ .commas).2 h2) (nofault _)
            | tagPrefix => exact absurd ((checkLabel_error upper _ .tagPrefix).2 h2) (nofault _)
            | unsupported => exact absurd ((checkLabel_error upper _ .unsupported).2 h2) (nofault _)

theorem action_report (upper : Str → Str) (s : Src) (e : SymErr) (l : Str) (tt : Option Str)
    (h : actionOf upper (srcCard s) = .err e l tt) :
    FaultReport upper s (reportOf (srcCard s) e l tt) := by
  refine ⟨(action_fault upper s e l).1 ⟨tt, h⟩, rfl, rfl, isEntry_entry _, rfl, ?_, rfl, rfl⟩
  unfold actionOf at h
  by_cases h8 : (srcCard s).column8 = some (py "*")
  · rw [if_pos h8] at h; cases h
  · rw [if_neg h8] at h
    cases hl : (srcCard s).label with
    | none => rw [hl] at h; cases h
    | some l₀ =>
      have hL := (label_iff s l₀).1 hl
      obtain ⟨hst, hne⟩ := hasLabel_strip hL
      rw [hl] at h
      cases l₀ with
      | nil => exact absurd rfl hne
      | cons x xs =>
        simp only at h
        cases hk : checkLabel upper (cleanLabel (x :: xs)) with
        | error e' =>
          rw [hk] at h
          cases h
          rw [cleanLabel_eq hst] at hk
          have hf := (checkLabel_error upper _ e).1 hk
          simp only [reportOf]
          cases e <;> first | rfl | exact absurd hf id
        | ok p =>
          obtain ⟨tag, t⟩ := p
          rw [hk] at h
          simp only at h
          cases ho : (srcCard s).operation with
          | none =>
            rw [ho] at h
            cases h
            exact ⟨x :: xs, tag, t, hL, (goodLabel_iff upper hst tag t).1 hk, rfl⟩
          | some o => rw [ho] at h; cases h

open Classical in
theorem errsOf_faults (upper : Str → Str) (out : List Src) :
    List.Forall₂ (FaultReport upper) (out.filter fun s => decide (InError upper s))
      (errsOf upper (out.map srcCard)) := by
  unfold errsOf
  induction out with
  | nil => exact .nil
  | cons s out ih =>
    rw [List.map_cons, List.filterMap_cons, List.filter_cons]
    have := action_err upper s
    cases ha : actionOf upper (srcCard s) with
    | skip =>
      have hn : ¬ InError upper s := fun h => by
        obtain ⟨e, l, tt, h⟩ := this.2 h; rw [ha] at h; cases h
      simpa [hn] using ih
    | def_ tag tt o =>
      have hn : ¬ InError upper s := fun h => by
        obtain ⟨e, l, tt, h⟩ := this.2 h; rw [ha] at h; cases h
      simpa [hn] using ih
    | err e l tt =>
      have hy : InError upper s := this.1 ⟨e, l, _, ha⟩
      simp only [hy, decide_true, if_true]
      exact .cons (action_report upper s e l tt ha) ih

/-! ### C146 -/

/-- C146: a line is in error exactly if it has a fault, and it has one only. -/
theorem C146_once (upper : Str → Str) (s : Src) :
    (InError upper s ↔ ∃ e l, Fault upper s e l) ∧
    ∀ e l e' l', Fault upper s e l → Fault upper s e' l' → e = e' ∧ l = l' := by
  constructor
  · rw [← action_err]
    simp only [action_fault]
  · intro e l e' l' h h'
    rw [← action_fault] at h h'
    obtain ⟨tt, h⟩ := h
    obtain ⟨tt', h'⟩ := h'
    rw [h] at h'
    cases h'
    exact ⟨rfl, rfl⟩

open Classical in
/-- C146: the errors printed for a file are the faults of its lines in error, one for each and in the
order of the lines; each with the file, the number and the log number of the line. -/
theorem C146_faults (upper : Str → Str) (fs : FileSystem) (fuel : Nat) (file : Str) (t : Symtab)
    (seg : Str) (hseg : BeforeFirst '.' file seg) (hp : PlainSeg seg) (ht : PlainTable t)
    (b : BuildState) (hb : buildSymbolTable upper fs fuel file t = .ok b) :
    ∃ out, Expands fs file out ∧
      List.Forall₂ (FaultReport upper)
        (out.filter fun s => decide (InError upper s)) b.diags := by
  obtain ⟨hf, out, ho, hbuild⟩ := build_ok hb
  obtain rfl := beforeFirst_unique hseg
  rw [(buildCards_plain hp ((plain_iff t).1 ht) _).1] at hbuild
  cases hbuild
  refine ⟨out, ho, ?_⟩
  rw [(fold_errs upper _ _ _).2, List.nil_append]
  exact errsOf_faults upper out

/-- Concrete case: a lower-case label and a wrong prefix in the file of `symFs_build`. -/
example : ∃ b, buildSymbolTable asciiUpper symFs 10 (py "T.arg") [] = .ok b ∧
    b.diags.map (fun d => (d.err, d.label, d.file, d.line, d.tagtype)) =
      [(.case, py "b", some (py "T.arg"), 3, none),
       (.tagPrefix, py "M,C", some (py "T.arg"), 4, some (py " "))] := by
  obtain ⟨b, h, -, -, h2, -⟩ := symFs_build
  exact ⟨b, h, h2⟩

/-- A line for each of the five faults. -/
example : ([py "        a          TN", py "        B,B,C      TN", py "        M,C        TN",
      py "        L,C        TN", py "        C            "].map fun t =>
        match actionOf asciiUpper (srcCard ⟨py "T.arg", 1, t⟩) with
        | .err e l _ => some (e, l)
        | _ => none) =
    [some (.case, py "a"), some (.commas, py "B,B,C"), some (.tagPrefix, py "M,C"),
      some (.unsupported, py "L,C"), some (.noOperation, py "C")] := by decide

/-! ### C147 -/

theorem buildCardsRun_ok {upper : Str → Str} {seg : Str} {cards : List CodeCard}
    {st st' : BuildState} (h : buildCards upper seg st cards = .ok st') :
    buildCardsRun upper seg cards st = (st', .ok ()) := by
  induction cards generalizing st with
  | nil => cases h; rfl
  | cons c cards ih =>
    unfold buildCards at h
    rw [List.foldlM_cons] at h
    rw [buildCardsRun]
    cases hs : buildStep upper seg st c with
    | error e => rw [hs] at h; cases h
    | ok st1 => rw [hs] at h; exact ih h

theorem buildRun_pure (upper : Str → Str) {fs : FileSystem} {fuel : Nat} {file : Str}
    {out : List Src} {t : Symtab} (hp : PlainSeg (splitFirst file '.')) (ht : Plain4 t)
    (h : deckCards fs fuel file = .ok (out.map srcCard)) :
    buildRun upper fs fuel file t = (buildPure upper t file out, .ok ()) ∧
    buildSymbolTable upper fs fuel file t = .ok (buildPure upper t file out) ∧
    Plain4 (buildPure upper t file out).symtab := by
  obtain ⟨h1, h2⟩ := buildCards_plain (upper := upper) hp (st := ⟨t, py "1", 0, []⟩) ht
    (out.map srcCard)
  refine ⟨?_, ?_, h2⟩
  · unfold buildRun
    rw [h]
    exact buildCardsRun_ok h1
  · unfold buildSymbolTable
    rw [h]
    exact h1

theorem buildPure_report (upper : Str → Str) (announce : Bool) (t : Symtab) (f : Str)
    (out : List Src) : FileReport upper announce (f, out)
      ((buildPure upper t f out).diags.map .diag ++
        if announce then [.fileErrs f (buildPure upper t f out).errcount] else []) := by
  unfold buildPure
  rw [(fold_errs upper _ _ _).2, (fold_errs upper _ _ _).1, List.nil_append, Nat.zero_add]
  exact ⟨_, errsOf_faults upper out, rfl⟩

/-- The loop over the files, both ways of modelling it. -/
theorem buildFilesRun_cases (upper : Str → Str) {fs : FileSystem} {fuel : Nat} (announce : Bool)
    {files : List Str} (hp : ∀ f ∈ files, PlainSeg (splitFirst f '.')) {t : Symtab} (ht : Plain4 t)
    (n : Nat) (es : List Nat) :
    (∃ srcs rs t' n' es', Read fs files srcs ∧ List.Forall₂ (FileReport upper announce) srcs rs ∧
      buildFilesRun upper fs fuel announce files t n = (rs.flatten, t', n', .ok ()) ∧
      files.foldlM (fun r f => do
        let b ← buildSymbolTable upper fs fuel f r.1
        return (b.symtab, r.2.1 ++ [b.errcount], r.2.2 + b.errcount)) (t, es, n) =
          Except.ok (ε := PyErr) (t', es', n')) ∨
    (∃ pre f post srcs rs t' n' e, files = pre ++ f :: post ∧ Read fs pre srcs ∧
      List.Forall₂ (FileReport upper announce) srcs rs ∧
      buildFilesRun upper fs fuel announce files t n = (rs.flatten, t', n', .error e) ∧
      deckCards fs fuel f = .error e ∧
      files.foldlM (fun r f => do
        let b ← buildSymbolTable upper fs fuel f r.1
        return (b.symtab, r.2.1 ++ [b.errcount], r.2.2 + b.errcount)) (t, es, n) =
          Except.error (α := Symtab × List Nat × Nat) e) := by
  induction files generalizing t n es with
  | nil => exact Or.inl ⟨[], [], t, n, es, ⟨rfl, by simp⟩, .nil, rfl, rfl⟩
  | cons f files ih =>
    rw [List.foldlM_cons, buildFilesRun]
    cases hd : deckCards fs fuel f with
    | error e =>
      right
      have h1 : buildRun upper fs fuel f t = (⟨t, py "1", 0, []⟩, .error e) := by
        unfold buildRun; rw [hd]
      have h2 : buildSymbolTable upper fs fuel f t = .error e := by
        unfold buildSymbolTable; rw [hd]; rfl
      rw [h1, h2]
      exact ⟨[], f, files, [], [], t, n, e, rfl, ⟨rfl, by simp⟩, .nil, rfl, hd, rfl⟩
    | ok cs =>
      obtain ⟨-, out, ho, rfl⟩ := deckCards_ok hd
      obtain ⟨h1, h2, h3⟩ := buildRun_pure upper (hp f List.mem_cons_self) ht hd
      rw [h1, h2]
      rcases ih (fun g hg => hp g (List.mem_cons_of_mem _ hg)) h3
          (n + (buildPure upper t f out).errcount) (es ++ [(buildPure upper t f out).errcount]) with
        ⟨srcs, rs, t', n', es', hr, hrs, k1, k2⟩ | ⟨pre, g, post, srcs, rs, t', n', e, rfl, hr, hrs, k1, k3, k2⟩
      · left
        refine ⟨(f, out) :: srcs, _ :: rs, t', n', es', ?_,
          .cons (buildPure_report upper announce t f out) hrs, ?_, k2⟩
        · exact ⟨by rw [List.map_cons, hr.1], by
            intro p hp'
            rcases List.mem_cons.1 hp' with rfl | hp'
            · exact ho
            · exact hr.2 p hp'⟩
        · simp only [k1, List.flatten_cons]
      · right
        refine ⟨f :: pre, g, post, (f, out) :: srcs, _ :: rs, t', n', e, rfl, ?_,
          .cons (buildPure_report upper announce t f out) hrs, ?_, k3, k2⟩
        · exact ⟨by rw [List.map_cons, hr.1], by
            intro p hp'
            rcases List.mem_cons.1 hp' with rfl | hp'
            · exact ho
            · exact hr.2 p hp'⟩
        · simp only [k1, List.flatten_cons]

theorem buildFilesRun_first (upper : Str → Str) {fs : FileSystem} {fuel : Nat} (announce : Bool)
    {f : Str} {e : PyErr} (h : deckCards fs fuel f = .error e) (post : List Str) (t : Symtab)
    (n : Nat) : ∃ t', buildFilesRun upper fs fuel announce (f :: post) t n = ([], t', n, .error e) := by
  refine ⟨t, ?_⟩
  rw [buildFilesRun]
  unfold buildRun
  rw [h]
  rfl

theorem list_args {args : List Str} (h : args ≠ []) : ¬ args.length < 1 := by
  cases args with
  | nil => exact absurd rfl h
  | cons a as => simp

/-- C147: if check-symbols stops with an exception, it has printed the reports on the files before one
with which it stops in the same way at once, and nothing else. -/
theorem C147_check_failure (upper : Str → Str) (extract : Str → List Str → Nat → List Str)
    (fs : FileSystem) (fuel : Nat) (complex : Bool) (files : List Str) (out : List SymMsg) (e : PyErr)
    (hf : files ≠ []) (hp : PlainFiles files)
    (h : checkSymbolsRun upper extract fs fuel complex files = (out, .error e)) :
    ∃ pre f post srcs rs, files = pre ++ f :: post ∧ Read fs pre srcs ∧
      List.Forall₂ (FileReport upper true) srcs rs ∧ out = rs.flatten ∧
      ∀ post', checkSymbolsRun upper extract fs fuel complex (f :: post') = ([], .error e) := by
  unfold checkSymbolsRun at h
  rw [if_neg (list_args hf)] at h
  rcases buildFilesRun_cases upper (fs := fs) (fuel := fuel) true (plainFiles_iff.1 hp) plain4_nil 0 []
    with ⟨srcs, rs, t', n', es', -, -, k1, -⟩ | ⟨pre, f, post, srcs, rs, t', n', e', h1, h2, h3, k1, k2, -⟩
  · rw [k1] at h
    cases h
  · rw [k1] at h
    cases h
    refine ⟨pre, f, post, srcs, rs, h1, h2, h3, rfl, fun post' => ?_⟩
    unfold checkSymbolsRun
    rw [if_neg (by simp)]
    obtain ⟨t1, k3⟩ := buildFilesRun_first upper true k2 post' [] 0
    rw [k3]

/-- C147: the same for list-symbols, which does not announce the files; in particular nothing is
listed. -/
theorem C147_list_failure (upper : Str → Str) (fs : FileSystem) (fuel : Nat) (files : List Str)
    (out : List SymMsg) (e : PyErr) (hf : files ≠ []) (hp : PlainFiles files)
    (h : listSymbolsRun upper fs fuel files = (out, .error e)) :
    ∃ pre f post srcs rs, files = pre ++ f :: post ∧ Read fs pre srcs ∧
      List.Forall₂ (FileReport upper false) srcs rs ∧ out = rs.flatten ∧
      ∀ post', listSymbolsRun upper fs fuel (f :: post') = ([], .error e) := by
  unfold listSymbolsRun at h
  rw [if_neg (list_args hf)] at h
  rcases buildFilesRun_cases upper (fs := fs) (fuel := fuel) false (plainFiles_iff.1 hp) plain4_nil 0 []
    with ⟨srcs, rs, t', n', es', h0, -, k1, k2⟩ | ⟨pre, f, post, srcs, rs, t', n', e', h1, h2, h3, k1, k2, -⟩
  · rw [k1] at h
    obtain ⟨srcs', hr', e1, -⟩ := buildAll_ok_from (plainFiles_iff.1 hp) plain4_nil k2
    simp only at e1
    obtain ⟨tl, htl⟩ := tableLines_total (t := t') (by
      intro tag seg sub kind e he
      rw [recorded_iff, e1,
        buildSrcs_recorded upper srcs' [] (read_plain hr' hp) plain4_nil] at he
      rcases he with ⟨k, i, s, tt, -, rfl⟩ | ⟨he, -⟩
      · exact ⟨s.file, rfl⟩
      · cases he)
    simp only [htl] at h
    cases h
  · rw [k1] at h
    cases h
    refine ⟨pre, f, post, srcs, rs, h1, h2, h3, rfl, fun post' => ?_⟩
    unfold listSymbolsRun
    rw [if_neg (by simp)]
    obtain ⟨t1, k3⟩ := buildFilesRun_first upper false k2 post' [] 0
    rw [k3]

/-- C147: the same for find-symbols; with options that conflict, or without a file, nothing is
printed. -/
theorem C147_find_failure (upper : Str → Str) (extract : Str → List Str → Nat → List Str)
    (fs : FileSystem) (fuel : Nat) (begin end_ fuzzy exact_ : Bool) (args : List Str)
    (out : List SymMsg) (e : PyErr) (hp : PlainFiles (args.drop 1))
    (h : findSymbolsRun upper extract fs fuel begin end_ fuzzy exact_ args = (out, .error e)) :
    ((2 ≤ [begin, end_, fuzzy, exact_].count true ∨ args.length < 2) ∧ out = [] ∧
      e = .systemExit) ∨
    ∃ symbol pre f post srcs rs, args = symbol :: pre ++ f :: post ∧ Read fs pre srcs ∧
      List.Forall₂ (FileReport upper true) srcs rs ∧ out = rs.flatten ∧
      ∀ post', findSymbolsRun upper extract fs fuel begin end_ fuzzy exact_ (symbol :: f :: post') =
        ([], .error e) := by
  unfold findSymbolsRun at h
  by_cases ho : ((begin && exact_) || (end_ && exact_) || (begin && end_) ||
      (fuzzy && (begin || end_ || exact_))) = true
  · rw [if_pos ho] at h
    cases h
    refine Or.inl ⟨Or.inl ?_, rfl, rfl⟩
    revert ho
    cases begin <;> cases end_ <;> cases fuzzy <;> cases exact_ <;> decide
  · rw [if_neg ho] at h
    match args, h with
    | [], h => cases h; exact Or.inl ⟨Or.inr (by simp), rfl, rfl⟩
    | [x], h => cases h; exact Or.inl ⟨Or.inr (by simp), rfl, rfl⟩
    | symbol :: g :: gs, h =>
      simp only at h
      right
      rcases buildFilesRun_cases upper (fs := fs) (fuel := fuel) true (plainFiles_iff.1 hp) plain4_nil 0 []
        with ⟨srcs, rs, t', n', es', -, -, k1, -⟩ | ⟨pre, f, post, srcs, rs, t', n', e', h1, h2, h3, k1, k2, -⟩
      · simp only [List.drop_succ_cons, List.drop_zero] at k1
        rw [k1] at h
        cases h
      · simp only [List.drop_succ_cons, List.drop_zero] at k1 h1
        rw [k1] at h
        cases h
        refine ⟨symbol, pre, f, post, srcs, rs, by rw [h1]; rfl, h2, h3, rfl, fun post' => ?_⟩
        unfold findSymbolsRun
        rw [if_neg ho]
        obtain ⟨t1, k3⟩ := buildFilesRun_first upper true k2 post' [] 0
        simp only [k3]

/-- C147: if check-symbols ends normally it has printed, in this order, the reports on all files; an
error for each symbol it reports; under a heading, these symbols with the suggestions for them, and
their number; and for several files the total. It ends normally exactly if `checkSymbols` does. -/
theorem C147_check_success (upper : Str → Str) (extract : Str → List Str → Nat → List Str)
    (fs : FileSystem) (fuel : Nat) (complex : Bool) (files : List Str) (hp : PlainFiles files) :
    (∀ out, checkSymbolsRun upper extract fs fuel complex files = (out, .ok ()) →
      ∃ rep, checkSymbols upper extract fs fuel complex files = .ok rep) ∧
    ∀ rep, checkSymbols upper extract fs fuel complex files = .ok rep →
      ∃ srcs rs, Read fs files srcs ∧ List.Forall₂ (FileReport upper true) srcs rs ∧
        checkSymbolsRun upper extract fs fuel complex files =
          (rs.flatten ++ rep.undefined.map (fun p => .complexOnly p.1) ++
            (if rep.undefined = [] then [] else
              .undefinedHeader :: rep.undefined.map (fun p =>
                if p.2 = [] then .noMatches p.1 else .matches_ p.1 p.2) ++
              [.checkErrs rep.undefined.length]) ++
            (match rep.total with | none => [] | some n => [.total n]), .ok ()) := by
  by_cases hf : files = []
  · subst hf
    exact ⟨fun out h => (by cases h), fun rep h => (by cases h)⟩
  unfold checkSymbolsRun checkSymbols
  rw [if_neg (list_args hf), if_neg (list_args hf)]
  rcases buildFilesRun_cases upper (fs := fs) (fuel := fuel) true (plainFiles_iff.1 hp) plain4_nil 0 []
    with ⟨srcs, rs, t', n', es', h1, h2, k1, k2⟩ | ⟨pre, f, post, srcs, rs, t', n', e', h1, h2, h3, k1, k3, k2⟩
  · have k2' : buildAll upper fs fuel files = .ok (t', es', n') := k2
    rw [k1, k2']
    refine ⟨fun out _ => ⟨_, rfl⟩, fun rep hrep => ⟨srcs, rs, h1, h2, ?_⟩⟩
    rw [py_bind_ok] at hrep
    cases hrep
    simp only [List.map_map, List.length_map, List.map_eq_nil_iff]
    congr 1
    congr 1
    · congr 1
      unfold undefinedMsgs
      by_cases hn : checkSymbolTable t' complex = []
      · rw [if_pos hn, hn]; rfl
      · rw [if_neg hn, if_pos (List.length_pos_of_ne_nil hn)]
        congr 2
        apply List.map_congr_left
        intro s _
        simp only [Function.comp_apply]
        cases matchesOf (findSymbolDef extract t' s none false false true) with
        | nil => rfl
        | cons a l => rfl
    · by_cases hl : files.length > 1
      · rw [if_pos hl, if_pos hl]
      · rw [if_neg hl, if_neg hl]
  · have k2' : buildAll upper fs fuel files = .error e' := k2
    rw [k1, k2']
    exact ⟨fun out h => (by cases h), fun rep h => (by cases h)⟩

/-- C147: if list-symbols ends normally it has printed the reports on all files and then the lines of
`listSymbols`, the last of which is the number of errors if there are any. -/
theorem C147_list_success (upper : Str → Str) (fs : FileSystem) (fuel : Nat) (files : List Str)
    (hp : PlainFiles files) :
    (∀ out, listSymbolsRun upper fs fuel files = (out, .ok ()) →
      ∃ l, listSymbols upper fs fuel files = .ok l) ∧
    ∀ l, listSymbols upper fs fuel files = .ok l →
      ∃ srcs rs, Read fs files srcs ∧ List.Forall₂ (FileReport upper false) srcs rs ∧
        listSymbolsRun upper fs fuel files = (rs.flatten ++ l.map .listing, .ok ()) := by
  by_cases hf : files = []
  · subst hf
    exact ⟨fun out h => (by cases h), fun rep h => (by cases h)⟩
  unfold listSymbolsRun listSymbols
  rw [if_neg (list_args hf), if_neg (list_args hf)]
  rcases buildFilesRun_cases upper (fs := fs) (fuel := fuel) false (plainFiles_iff.1 hp) plain4_nil 0 []
    with ⟨srcs, rs, t', n', es', h1, h2, k1, k2⟩ | ⟨pre, f, post, srcs, rs, t', n', e', h1, h2, h3, k1, k3, k2⟩
  · have k2' : buildAll upper fs fuel files = .ok (t', es', n') := k2
    rw [k1, k2']
    simp only [py_bind_ok]
    cases ht : tableLines t' with
    | error e => exact ⟨fun out h => (by cases h), fun rep h => (by cases h)⟩
    | ok tl =>
      refine ⟨fun out _ => ⟨_, rfl⟩, fun l hl => ⟨srcs, rs, h1, h2, ?_⟩⟩
      cases hl
      simp only [List.append_assoc, List.map_append]
      congr 3
      split <;> rfl
  · have k2' : buildAll upper fs fuel files = .error e' := k2
    rw [k1, k2']
    exact ⟨fun out h => (by cases h), fun rep h => (by cases h)⟩

/-- C147: if find-symbols ends normally it has printed the reports on all files; then, if it looked
for a symbol itself and found nothing, that the symbol is undefined; then what was found, if there is
anything. -/
theorem C147_find_success (upper : Str → Str) (extract : Str → List Str → Nat → List Str)
    (fs : FileSystem) (fuel : Nat) (begin end_ fuzzy exact_ : Bool) (symbol : Str) (files : List Str)
    (hp : PlainFiles files) :
    (∀ out, findSymbolsRun upper extract fs fuel begin end_ fuzzy exact_ (symbol :: files) =
        (out, .ok ()) →
      ∃ r, findSymbols upper extract fs fuel begin end_ fuzzy exact_ (symbol :: files) = .ok r) ∧
    ∀ r, findSymbols upper extract fs fuel begin end_ fuzzy exact_ (symbol :: files) = .ok r →
      ∃ srcs rs, Read fs files srcs ∧ List.Forall₂ (FileReport upper true) srcs rs ∧
        findSymbolsRun upper extract fs fuel begin end_ fuzzy exact_ (symbol :: files) =
          (rs.flatten ++
            (match r with
            | some f => [.found f]
            | none => if begin || end_ || fuzzy then [] else [.undefined symbol]), .ok ()) := by
  unfold findSymbolsRun findSymbols
  by_cases ho : ((begin && exact_) || (end_ && exact_) || (begin && end_) ||
      (fuzzy && (begin || end_ || exact_))) = true
  · rw [if_pos ho, if_pos ho]
    exact ⟨fun out h => (by cases h), fun rep h => (by cases h)⟩
  rw [if_neg ho, if_neg ho]
  cases files with
  | nil => exact ⟨fun out h => (by cases h), fun rep h => (by cases h)⟩
  | cons g gs =>
    simp only
    rcases buildFilesRun_cases upper (fs := fs) (fuel := fuel) true (plainFiles_iff.1 hp) plain4_nil 0 []
      with ⟨srcs, rs, t', n', es', h1, h2, k1, k2⟩ | ⟨pre, f, post, srcs, rs, t', n', e', h1, h2, h3, k1, k3, k2⟩
    · have k2' : buildAll upper fs fuel (g :: gs) = .ok (t', es', n') := k2
      rw [k1, k2']
      simp only [py_bind_ok]
      have key : ∀ F : Found × Nat, findSymbolDef extract t' symbol none begin end_ fuzzy = F →
          (∃ l, F = (.names l, 0) ∧ (begin || end_ || fuzzy) = true) ∨
          ((begin || end_ || fuzzy) = false ∧
            ((∃ p d, F = (.defs (p :: d), 0)) ∨ F = (.nothing, 1))) := by
        rintro F rfl
        by_cases hx : (begin || end_ || fuzzy) = true
        · left
          unfold findSymbolDef
          rw [if_neg (by revert hx; cases begin <;> cases end_ <;> cases fuzzy <;> decide)]
          split
          · exact ⟨_, rfl, hx⟩
          · exact ⟨_, rfl, hx⟩
        · right
          refine ⟨by simpa using hx, ?_⟩
          obtain ⟨rfl, rfl, rfl⟩ : begin = false ∧ end_ = false ∧ fuzzy = false := by
            revert hx; cases begin <;> cases end_ <;> cases fuzzy <;> decide
          rcases C75_exact extract t' symbol none with ⟨d, hd, -, hf⟩ | ⟨-, hf⟩
          · left
            obtain ⟨seg, sub, kind, e, he⟩ := live_all k2' symbol d hd
            cases d with
            | nil =>
              simp only [lookup4, dat, hd, Option.getD_some] at he
              cases he
            | cons p d => exact ⟨p, d, hf⟩
          · exact Or.inr hf
      generalize findSymbolDef extract t' symbol none begin end_ fuzzy = F at key
      rcases key F rfl with ⟨l, rfl, hx⟩ | ⟨hx, ⟨p, d, rfl⟩ | rfl⟩
      · cases l with
        | nil =>
          refine ⟨fun out _ => ⟨_, rfl⟩, fun r hr => ⟨srcs, rs, h1, h2, ?_⟩⟩
          cases hr
          simp only [hx, if_true, List.replicate_zero, List.append_nil]
        | cons a l =>
          refine ⟨fun out _ => ⟨_, rfl⟩, fun r hr => ⟨srcs, rs, h1, h2, ?_⟩⟩
          cases hr
          simp only [List.replicate_zero, List.append_nil]
      · refine ⟨fun out _ => ⟨_, rfl⟩, fun r hr => ⟨srcs, rs, h1, h2, ?_⟩⟩
        cases hr
        simp only [List.replicate_zero, List.append_nil]
      · refine ⟨fun out _ => ⟨_, rfl⟩, fun r hr => ⟨srcs, rs, h1, h2, ?_⟩⟩
        cases hr
        simp only [hx, Bool.false_eq_true, if_false, List.append_nil]
        rfl
    · have k2' : buildAll upper fs fuel (g :: gs) = .error e' := k2
      rw [k1, k2']
      exact ⟨fun out h => (by cases h), fun rep h => (by cases h)⟩

/-- Concrete case of the hypotheses: of three files the second does not exist. check-symbols has
reported the error of the first file, and nothing about the third. -/
example : (match checkSymbolsRun asciiUpper (fun _ _ _ => []) twoFs 10 true
      [py "A.arg", py "C.arg", py "B.arg"] with
    | ([.diag d, .fileErrs f 1], .error .systemExit) =>
      decide (d.err = .case ∧ d.label = py "b" ∧ d.file = some (py "A.arg") ∧ d.line = 1 ∧ f = py "A.arg")
    | _ => false) = true := by
  decide +kernel

/-- Concrete case: both files can be read; C has a complex definition only, and the fuzzy finder
suggests D. -/
example : (match checkSymbolsRun asciiUpper (fun _ l _ => l) twoFs 10 true
      [py "A.arg", py "B.arg"] with
    | ([.diag _, .fileErrs _ 1, .fileErrs _ 0, .complexOnly c, .undefinedHeader,
        .matches_ c' m, .checkErrs 1, .total 2], .ok ()) => decide (c = py "C" ∧ c' = py "C" ∧ m = [py "D"])
    | _ => false) = true := by
  decide +kernel

end H800
