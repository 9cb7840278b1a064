import Verif.Lemmas.Reread
import Verif.Props.Layouts

/-!
Cards of any layout: what they keep of their line, and when two of them agree.
-/

namespace H800

open Spec

/-- A card of any layout keeps its line and where it comes from. -/
theorem keeps_any {cls : CardClass} (hcls : cls = argusClass ∨ cls = punchClass) {l : Str}
    {width : Int} {cols : List Int} {fn : Option Str} {n : Int} {c : PunchCard}
    (h : l.head? ≠ some '#') (hc : cls l width cols fn n = .ok c) :
    c.line = l.filter (· ≠ '\n') ∧ c.filename = fn ∧ c.linenum = n ∧ ∃ b, c.body = some b := by
  have hs : startsWith l '#' = false := by
    rw [Bool.eq_false_iff]; exact fun e => h (startsWith_iff.1 e)
  have hp : ∀ c, PunchCard.init l width cols DEFAULT_FIELDNAMES fn n = .ok c →
      c.line = l.filter (· ≠ '\n') ∧ c.filename = fn ∧ c.linenum = n ∧ ∃ b, c.body = some b := by
    intro c hc
    unfold PunchCard.init at hc
    rw [hs] at hc
    simp only [Bool.false_eq_true, if_false] at hc
    split at hc
    · cases hc
    · cases hc; exact ⟨rfl, rfl, rfl, _, rfl⟩
  rcases hcls with rfl | rfl
  · unfold argusClass Card.init at hc
    cases hq : PunchCard.init l width cols DEFAULT_FIELDNAMES fn n with
    | error e => rw [hq] at hc; cases hc
    | ok p =>
      obtain ⟨k1, k2, k3, b, hb⟩ := hp p hq
      rw [hq] at hc
      simp only [hb] at hc
      split at hc
      · cases hc
      · cases hc; exact ⟨k1, k2, k3, _, rfl⟩
  · exact hp c hc

/-- The name of the file does not matter but to the card's own. -/
theorem rename_any {cls : CardClass} (hcls : cls = argusClass ∨ cls = punchClass) (l : Str)
    (width : Int) (cols : List Int) (fn fn' : Option Str) (n : Int) :
    cls l width cols fn n = (cls l width cols fn' n).map fun c => { c with filename := fn } := by
  have hp : PunchCard.init l width cols DEFAULT_FIELDNAMES fn n =
      (PunchCard.init l width cols DEFAULT_FIELDNAMES fn' n).map fun c => { c with filename := fn } := by
    unfold PunchCard.init
    split
    · rfl
    · dsimp only
      cases PunchCard.fill (PunchCard.fieldsOf l (PunchCard.layoutOf width cols)) DEFAULT_FIELDNAMES
        (if n ≠ 0 then [(py "linenum", .int n)] else []) <;> rfl
  rcases hcls with rfl | rfl
  · unfold argusClass Card.init
    rw [hp]
    cases PunchCard.init l width cols DEFAULT_FIELDNAMES fn' n with
    | error e => rfl
    | ok p =>
      simp only [Except.map]
      cases p.body with
      | none => rfl
      | some b =>
        dsimp only
        cases Card.finish p.line b.record <;> rfl
  · exact hp

theorem sameRecord_dset {r r' : Dict Str RVal} (h : SameRecord r r') (k : Str) (v : RVal) :
    SameRecord (dset r k v) (dset r' k v) := by
  intro x hx
  rw [dset_get, dset_get, h x hx]

/-- Records filled with fields that strip to the same. -/
theorem fill_same : ∀ {fs fs' names : List Str} {r r' : Dict Str RVal},
    fs.map PunchCard.entry = fs'.map PunchCard.entry → SameRecord r r' →
    (PunchCard.fill fs names r = .error .indexError ∧
      PunchCard.fill fs' names r' = .error .indexError) ∨
    ∃ x x', PunchCard.fill fs names r = .ok x ∧ PunchCard.fill fs' names r' = .ok x' ∧
      SameRecord x x'
  | [], [], _, r, r', _, h => Or.inr ⟨r, r', rfl, rfl, h⟩
  | [], _ :: _, _, _, _, e, _ => by simp at e
  | _ :: _, [], _, _, _, e, _ => by simp at e
  | f :: fs, f' :: fs', [], _, _, _, _ => Or.inl ⟨rfl, rfl⟩
  | f :: fs, f' :: fs', n :: ns, r, r', e, h => by
    simp only [List.map_cons, List.cons.injEq] at e
    simp only [PunchCard.fill]
    rw [e.1]
    exact fill_same e.2 (sameRecord_dset h n _)

theorem same_dgetE {r r' : Dict Str RVal} (h : SameRecord r r') {k : Str} (hk : k ≠ py "linenum") :
    dgetE r k = dgetE r' k := by
  unfold dgetE; rw [h k hk]

theorem sameRecord_blank {r r' : Dict Str RVal} (h : SameRecord r r') (line : Str) :
    SameRecord (Card.blankCode line r) (Card.blankCode line r') := by
  unfold Card.blankCode
  repeat' apply sameRecord_dset
  exact h

/-- What an ARGUS card adds to records that agree. -/
theorem finish_same {r r' : Dict Str RVal} (h : SameRecord r r') (line : Str) :
    (∃ e, Card.finish line r = .error e ∧ Card.finish line r' = .error e) ∨
    ∃ x x', Card.finish line r = .ok x ∧ Card.finish line r' = .ok x' ∧ SameRecord x x' := by
  unfold Card.finish
  rw [← same_dgetE h (k := py "column1") (by decide)]
  cases dgetE r (py "column1") with
  | error e => exact Or.inl ⟨e, rfl, rfl⟩
  | ok c1 =>
    simp only [py_bind_ok]
    have h1 : SameRecord (if Card.isPRL c1 then Card.blankCode line r else r)
        (if Card.isPRL c1 then Card.blankCode line r' else r') := by
      split
      · exact sameRecord_blank h line
      · exact h
    generalize (if Card.isPRL c1 then Card.blankCode line r else r) = r1 at h1 ⊢
    generalize (if Card.isPRL c1 then Card.blankCode line r' else r') = r1' at h1 ⊢
    rw [← same_dgetE h1 (k := py "column1") (by decide)]
    cases dgetE r1 (py "column1") with
    | error e => exact Or.inl ⟨e, rfl, rfl⟩
    | ok c1' =>
      simp only [py_bind_ok]
      have h2 : SameRecord
          (if c1' = .str (py "L") then dset r1 (py "remarks") (.str (strip (sliceFrom line 9))) else r1)
          (if c1' = .str (py "L") then dset r1' (py "remarks") (.str (strip (sliceFrom line 9)))
            else r1') := by
        split
        · exact sameRecord_dset h1 _ _
        · exact h1
      generalize (if c1' = .str (py "L") then dset r1 (py "remarks") (.str (strip (sliceFrom line 9)))
        else r1) = r2 at h2 ⊢
      generalize (if c1' = .str (py "L") then dset r1' (py "remarks")
        (.str (strip (sliceFrom line 9))) else r1') = r2' at h2 ⊢
      rw [← same_dgetE h2 (k := py "operation") (by decide)]
      cases dgetE r2 (py "operation") with
      | error e => exact Or.inl ⟨e, rfl, rfl⟩
      | ok op =>
        simp only [py_bind_ok]
        cases Card.instructionOf op with
        | error e => exact Or.inl ⟨e, rfl, rfl⟩
        | ok ins => exact Or.inr ⟨_, _, rfl, rfl, sameRecord_dset h2 _ _⟩

/-- A newline at the end of the line is no matter to fields in columns from 1 on. -/
theorem fields_newline (t : Str) {width : Int} {cols : List Int} (hc : ∀ x ∈ cols, 1 ≤ x)
    (hw : 0 ≤ width) :
    (PunchCard.fieldsOf (t ++ ['\n']) (PunchCard.layoutOf width cols)).map PunchCard.entry =
      (PunchCard.fieldsOf t (PunchCard.layoutOf width cols)).map PunchCard.entry := by
  unfold PunchCard.fieldsOf
  rw [List.map_map, List.map_map]
  apply List.map_congr_left
  intro p hp
  have : 1 ≤ p.1 ∧ 1 ≤ p.1 + p.2 := by
    induction cols with
    | nil => simp [PunchCard.layoutOf] at hp
    | cons a cols ih =>
      cases cols with
      | nil =>
        simp only [PunchCard.layoutOf, List.mem_singleton] at hp
        subst hp
        have := hc a (by simp)
        dsimp only
        omega
      | cons b cols =>
        simp only [PunchCard.layoutOf, List.mem_cons] at hp
        rcases hp with rfl | hp
        · have h1 := hc a (by simp)
          have h2 := hc b (by simp)
          dsimp only
          omega
        · exact ih (fun x hx => hc x (List.mem_cons_of_mem _ hx)) (by simpa [PunchCard.layoutOf] using hp)
  show PunchCard.entry (slice _ _ _) = PunchCard.entry (slice _ _ _)
  have e : p.1 - 1 + p.2 = (p.1 + p.2) - 1 := by omega
  rw [e, slice_columns_any _ this.1 this.2, slice_columns_any _ this.1 this.2, entry_newline]

/-- Two lines whose fields strip to the same make cards that agree, or fail in the same way. -/
theorem alike_any {cls : CardClass} (hcls : cls = argusClass ∨ cls = punchClass) {l l' : Str}
    {width : Int} {cols : List Int} (hl : l.head? ≠ some '#') (hl' : l'.head? ≠ some '#')
    (hline : remove l '\n' = remove l' '\n')
    (hf : (PunchCard.fieldsOf l (PunchCard.layoutOf width cols)).map PunchCard.entry =
      (PunchCard.fieldsOf l' (PunchCard.layoutOf width cols)).map PunchCard.entry)
    (fn fn' : Option Str) (n n' : Int) :
    (∃ e, cls l width cols fn n = .error e ∧ cls l' width cols fn' n' = .error e) ∨
    ∃ c c', cls l width cols fn n = .ok c ∧ cls l' width cols fn' n' = .ok c' ∧ SameCard c c' := by
  have hs : startsWith l '#' = false := by
    rw [Bool.eq_false_iff]; exact fun e => hl (startsWith_iff.1 e)
  have hs' : startsWith l' '#' = false := by
    rw [Bool.eq_false_iff]; exact fun e => hl' (startsWith_iff.1 e)
  have hr : SameRecord (if n ≠ 0 then [(py "linenum", RVal.int n)] else [])
      (if n' ≠ 0 then [(py "linenum", RVal.int n')] else []) := by
    have : ∀ (m : Int) (k : Str), k ≠ py "linenum" →
        dget (if m ≠ 0 then [(py "linenum", RVal.int m)] else []) k = none := by
      intro m k hk
      split
      · simp [dget, hk.symm]
      · rfl
    intro k hk
    rw [this n k hk, this n' k hk]
  have hp : (PunchCard.init l width cols DEFAULT_FIELDNAMES fn n = .error .indexError ∧
      PunchCard.init l' width cols DEFAULT_FIELDNAMES fn' n' = .error .indexError) ∨
      ∃ c c' b b', PunchCard.init l width cols DEFAULT_FIELDNAMES fn n = .ok c ∧
        PunchCard.init l' width cols DEFAULT_FIELDNAMES fn' n' = .ok c' ∧ c.line = c'.line ∧
        c.body = some b ∧ c'.body = some b' ∧ b.stripped = b'.stripped ∧
        SameRecord b.record b'.record := by
    unfold PunchCard.init
    simp only [hs, hs', Bool.false_eq_true, if_false]
    rcases fill_same (names := DEFAULT_FIELDNAMES) hf hr with ⟨e, e'⟩ | ⟨x, x', e, e', h⟩
    · rw [e, e']; exact Or.inl ⟨rfl, rfl⟩
    · rw [e, e']
      exact Or.inr ⟨_, _, _, _, rfl, rfl, hline, rfl, rfl, hf, h⟩
  rcases hcls with rfl | rfl
  · unfold argusClass Card.init
    rcases hp with ⟨e, e'⟩ | ⟨c, c', b, b', e, e', h1, h2, h3, h4, h5⟩
    · rw [e, e']; exact Or.inl ⟨_, rfl, rfl⟩
    · rw [e, e']
      simp only [h2, h3, ← h1]
      rcases finish_same h5 c.line with ⟨er, g, g'⟩ | ⟨x, x', g, g', h⟩
      · rw [g, g']; exact Or.inl ⟨_, rfl, rfl⟩
      · rw [g, g']
        refine Or.inr ⟨_, _, rfl, rfl, rfl, ?_, x, x', rfl, rfl, h⟩
        show Except.ok b.stripped = Except.ok b'.stripped
        rw [h4]
  · rcases hp with ⟨e, e'⟩ | ⟨c, c', b, b', e, e', h1, h2, h3, h4, h5⟩
    · exact Or.inl ⟨_, e, e'⟩
    · refine Or.inr ⟨c, c', e, e', h1, ?_, b.record, b'.record, ?_, ?_, h5⟩
      · unfold PunchCard.strippedFields PunchCard.getBody
        rw [h2, h3]
        show Except.ok b.stripped = Except.ok b'.stripped
        rw [h4]
      · unfold PunchCard.record PunchCard.getBody; rw [h2]; rfl
      · unfold PunchCard.record PunchCard.getBody; rw [h3]; rfl

/-- A line with and without its newline. -/
theorem alike_newline {cls : CardClass} (hcls : cls = argusClass ∨ cls = punchClass) {t l l' : Str}
    {width : Int} {cols : List Int} (hc : ∀ x ∈ cols, 1 ≤ x) (hw : 0 ≤ width)
    (hh : t.head? ≠ some '#') (hl : l = t ∨ l = t ++ ['\n']) (hl' : l' = t ∨ l' = t ++ ['\n'])
    (fn fn' : Option Str) (n n' : Int) :
    (∃ e, cls l width cols fn n = .error e ∧ cls l' width cols fn' n' = .error e) ∨
    ∃ c c', cls l width cols fn n = .ok c ∧ cls l' width cols fn' n' = .ok c' ∧ SameCard c c' := by
  have hd : (t ++ ['\n']).head? ≠ some '#' := by
    cases t with
    | nil => decide
    | cons x t => exact hh
  have hrm : remove (t ++ ['\n']) '\n' = remove t '\n' := by
    unfold remove
    rw [List.filter_append]
    simp
  have hf := fields_newline t hc hw
  rcases hl with rfl | rfl <;> rcases hl' with rfl | rfl
  · exact alike_any hcls hh hh rfl rfl fn fn' n n'
  · exact alike_any hcls hh hd hrm.symm hf.symm fn fn' n n'
  · exact alike_any hcls hd hh hrm hf fn fn' n n'
  · exact alike_any hcls hd hd rfl rfl fn fn' n n'

end H800
