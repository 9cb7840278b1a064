import Verif.Lemmas.SymTools
import Verif.Spec.Named

/-!
Lemmas for C188: building the table from a file of any name.
-/

namespace H800

open Spec

theorem hasSeg_iff (t : Symtab) (tag seg : Str) :
    HasSeg t tag seg ↔ (dget (dat t tag) seg).isSome = true := by
  unfold HasSeg
  rw [Option.isSome_iff_exists]
  constructor
  · rintro ⟨segs, subs, h1, h2⟩; exact ⟨subs, (dget_dat _ _ _ _).2 ⟨segs, h1, h2⟩⟩
  · rintro ⟨subs, h⟩
    obtain ⟨segs, h1, h2⟩ := (dget_dat _ _ _ _).1 h
    exact ⟨segs, subs, h1, h2⟩

theorem hasSub_iff (t : Symtab) (tag seg sub : Str) :
    HasSub t tag seg sub ↔ (dget (dat (dat t tag) seg) sub).isSome = true := by
  unfold HasSub
  rw [Option.isSome_iff_exists]
  constructor
  · rintro ⟨segs, subs, kinds, h1, h2, h3⟩
    exact ⟨kinds, (dget_dat _ _ _ _).2 ⟨subs, (dget_dat _ _ _ _).2 ⟨segs, h1, h2⟩, h3⟩⟩
  · rintro ⟨kinds, h⟩
    obtain ⟨subs, h1, h3⟩ := (dget_dat _ _ _ _).1 h
    obtain ⟨segs, h1, h2⟩ := (dget_dat _ _ _ _).1 h1
    exact ⟨segs, subs, kinds, h1, h2, h3⟩

theorem hasSeg_put4 (t : Symtab) (tag seg sub kind : Str) (e : SymEntry) (tag' seg' : Str) :
    HasSeg (put4 t tag seg sub kind e) tag' seg' ↔ HasSeg t tag' seg' ∨ (tag' = tag ∧ seg' = seg) := by
  rw [hasSeg_iff, hasSeg_iff]
  unfold put4
  rw [dat_dset]
  by_cases h1 : tag' = tag
  · subst h1
    rw [if_pos rfl, dget_dset]
    by_cases h2 : seg' = seg
    · simp [h2]
    · simp [h2]
  · simp [h1]

theorem hasSub_put4 (t : Symtab) (tag seg sub kind : Str) (e : SymEntry) (tag' seg' sub' : Str) :
    HasSub (put4 t tag seg sub kind e) tag' seg' sub' ↔
      HasSub t tag' seg' sub' ∨ (tag' = tag ∧ seg' = seg ∧ sub' = sub) := by
  rw [hasSub_iff, hasSub_iff]
  unfold put4
  rw [dat_dset]
  by_cases h1 : tag' = tag
  · subst h1
    rw [if_pos rfl, dat_dset]
    by_cases h2 : seg' = seg
    · subst h2
      rw [if_pos rfl, dget_dset]
      by_cases h3 : sub' = sub
      · simp [h3]
      · simp [h3]
    · simp [h2]
  · simp [h1]

/-- When a definition is entered, and what happens otherwise. -/
theorem define_exact (st : BuildState) (seg tag kind cmd : Str) (e : SymEntry) :
    (¬ (HasSub st.symtab tag seg st.subseg ∧ HasSeg st.symtab tag kind) →
      define st seg tag kind cmd e =
        .ok { st with symtab := put4 st.symtab tag seg st.subseg kind e }) ∧
    (HasSub st.symtab tag seg st.subseg ∧ HasSeg st.symtab tag kind →
      (cmd ≠ py "EQUALS" → ∃ kinds, define st seg tag kind cmd e =
        .ok (st.report ⟨.multiple, tag, e.file, e.line, e.lognum, some e.tagtype, e.card, kinds,
          some cmd⟩)) ∧
      (cmd = py "EQUALS" → define st seg tag kind cmd e =
        .error (@ite _ (HasSub st.symtab tag kind (py "card")) (Classical.propDecidable _)
          PyErr.attributeError PyErr.keyError))) := by
  constructor
  · intro h
    rcases define_cases st seg tag kind cmd e with h' | ⟨weird, kinds, h1, h2, -⟩
    · exact h'
    · exact absurd ⟨(hasSub_iff _ _ _ _).2 (by rw [h2]; rfl), (hasSeg_iff _ _ _).2 (by rw [h1]; rfl)⟩ h
  · rintro ⟨h1, h2⟩
    obtain ⟨segs, subs, kinds, e1, e2, e3⟩ := h1
    obtain ⟨segs', weird, e4, e5⟩ := h2
    rw [e1] at e4
    cases e4
    have hd : define st seg tag kind cmd e = redefine st seg tag kind cmd e segs subs kinds := by
      rw [define, e1]
      simp only [e2, e3]
    rw [hd, redefine, e5]
    constructor
    · intro hc
      exact ⟨kinds, by simp only [if_neg hc]⟩
    · intro hc
      simp only [if_pos hc]
      cases h6 : dget weird (py "card") with
      | none =>
        rw [if_neg]
        rintro ⟨a, b, c, f1, f2, f3⟩
        rw [e1] at f1; cases f1
        rw [e5] at f2; cases f2
        rw [h6] at f3; cases f3
      | some v =>
        rw [if_pos ⟨segs, weird, v, e1, e5, h6⟩]

/-- The subsegment before line `i`. -/
def subBefore (x : Str) (out : List Src) (i : Nat) : Str :=
  (out.take i).foldl (fun x s => stepSub x (srcCard s)) x

theorem subBefore_succ (x : Str) {out : List Src} {i : Nat} {s : Src} (h : out[i]? = some s) :
    subBefore x out (i + 1) = stepSub (subBefore x out i) (srcCard s) := by
  unfold subBefore
  rw [List.take_add_one, h, List.foldl_append]
  rfl

theorem subAt_eq (x : Str) (out : List Src) (i : Nat) (h : i < out.length) :
    subAt x out i = subBefore x out (i + 1) := by
  induction out generalizing x i with
  | nil => simp at h
  | cons s out ih =>
    cases i with
    | zero => rfl
    | succ i =>
      rw [subAt, ih _ _ (by simpa using h)]
      rfl

theorem definesAt_iff (upper : Str → Str) (out : List Src) (i : Nat) (s : Src)
    (tag tt sub kind : Str) :
    DefinesAt upper out i s tag tt sub kind ↔ out[i]? = some s ∧ ∃ o,
      actionOf upper (srcCard s) = .def_ tag tt o ∧ kind = symtypeOf o ∧
      sub = stepSub (subBefore (py "1") out i) (srcCard s) := by
  unfold DefinesAt
  constructor
  · rintro ⟨h1, h2, h3, ⟨o, h4, h5⟩, h6⟩
    refine ⟨h1, o, (action_def _ _ _ _ _).2 ⟨h2, h3, h4⟩, h5, ?_⟩
    rw [← subBefore_succ _ h1, ← subAt_eq _ _ _ (List.getElem?_eq_some_iff.1 h1).1]
    exact ((current_iff _ _ _).1 h6).symm
  · rintro ⟨h1, o, h2, h3, h4⟩
    obtain ⟨a, b, c⟩ := (action_def _ _ _ _ _).1 h2
    refine ⟨h1, a, b, ⟨o, c, h3⟩, (current_iff _ _ _).2 ?_⟩
    rw [h4, ← subBefore_succ _ h1, ← subAt_eq _ _ _ (List.getElem?_eq_some_iff.1 h1).1]

theorem checkLabel_not_multiple {upper : Str → Str} {s : Str} {e : SymErr}
    (he : checkLabel upper s = .error e) : e ≠ .multiple := by
  unfold checkLabel at he
  simp only at he
  split at he
  · cases he; decide
  · split at he
    · split at he
      · cases he; decide
      · split at he
        · cases he; decide
        · split at he
          · cases he; decide
          · cases he
    · cases he

theorem action_not_multiple {upper : Str → Str} {c : CodeCard} {e : SymErr} {l : Str}
    {tt : Option Str} (h : actionOf upper c = .err e l tt) : e ≠ .multiple := by
  unfold actionOf at h
  split at h
  · cases h
  · split at h
    · cases h
    · cases h
    · split at h
      · rename_i he
        cases h
        exact checkLabel_not_multiple he
      · split at h
        · cases h; decide
        · cases h

open Classical in
/-- What is known about the state before line `i`. -/
structure Upto (upper : Str → Str) (t : Symtab) (seg : Str) (out : List Src) (i : Nat)
    (st : BuildState) : Prop where
  subseg : st.subseg = subBefore (py "1") out i
  segs : ∀ tag seg', HasSeg st.symtab tag seg' ↔ KnownSeg upper t seg out i tag seg'
  subs : ∀ tag seg' sub, HasSub st.symtab tag seg' sub ↔ KnownSub upper t seg out i tag seg' sub
  errs : st.errcount = ((out.take i).filter fun s => decide (InError upper s)).length +
    ((List.range i).filter fun j => decide (Taken upper t seg out j)).length
  diags : List.Forall₂ (fun j d => ∃ s tag tt sub kind, DefinesAt upper out j s tag tt sub kind ∧
      d.label = tag ∧ d.file = some s.file ∧ d.line = (s.num : Int))
    ((List.range i).filter fun j => decide (Taken upper t seg out j))
    (st.diags.filter fun d => decide (d.err = .multiple))
  last : ∀ j s tag tt sub kind, j < i → DefinesAt upper out j s tag tt sub kind →
    ¬ Taken upper t seg out j →
    (∀ k s' tt', j < k → k < i → DefinesAt upper out k s' tag tt' sub kind →
      Taken upper t seg out k) →
    lookup4 st.symtab tag seg sub kind = some (entryOf (srcCard s) tt)
  old : ∀ tag sub kind, (∀ k s' tt', k < i → DefinesAt upper out k s' tag tt' sub kind →
      Taken upper t seg out k) →
    lookup4 st.symtab tag seg sub kind = lookup4 t tag seg sub kind
  other : ∀ tag seg' sub kind, seg' ≠ seg →
    lookup4 st.symtab tag seg' sub kind = lookup4 t tag seg' sub kind

theorem knownSeg_succ {upper : Str → Str} {t : Symtab} {seg : Str} {out : List Src} {i : Nat}
    {tag seg' : Str} : KnownSeg upper t seg out (i + 1) tag seg' ↔
      KnownSeg upper t seg out i tag seg' ∨
        (seg' = seg ∧ ∃ s tt sub kind, DefinesAt upper out i s tag tt sub kind) := by
  unfold KnownSeg
  constructor
  · rintro (h | ⟨h, j, s, tt, sub, kind, hj, hd⟩)
    · exact Or.inl (Or.inl h)
    · rcases Nat.lt_succ_iff_lt_or_eq.1 hj with hj | rfl
      · exact Or.inl (Or.inr ⟨h, j, s, tt, sub, kind, hj, hd⟩)
      · exact Or.inr ⟨h, s, tt, sub, kind, hd⟩
  · rintro ((h | ⟨h, j, s, tt, sub, kind, hj, hd⟩) | ⟨h, s, tt, sub, kind, hd⟩)
    · exact Or.inl h
    · exact Or.inr ⟨h, j, s, tt, sub, kind, by omega, hd⟩
    · exact Or.inr ⟨h, i, s, tt, sub, kind, by omega, hd⟩

theorem knownSub_succ {upper : Str → Str} {t : Symtab} {seg : Str} {out : List Src} {i : Nat}
    {tag seg' sub : Str} : KnownSub upper t seg out (i + 1) tag seg' sub ↔
      KnownSub upper t seg out i tag seg' sub ∨
        (seg' = seg ∧ ∃ s tt kind, DefinesAt upper out i s tag tt sub kind) := by
  unfold KnownSub
  constructor
  · rintro (h | ⟨h, j, s, tt, kind, hj, hd⟩)
    · exact Or.inl (Or.inl h)
    · rcases Nat.lt_succ_iff_lt_or_eq.1 hj with hj | rfl
      · exact Or.inl (Or.inr ⟨h, j, s, tt, kind, hj, hd⟩)
      · exact Or.inr ⟨h, s, tt, kind, hd⟩
  · rintro ((h | ⟨h, j, s, tt, kind, hj, hd⟩) | ⟨h, s, tt, kind, hd⟩)
    · exact Or.inl h
    · exact Or.inr ⟨h, j, s, tt, kind, by omega, hd⟩
    · exact Or.inr ⟨h, i, s, tt, kind, by omega, hd⟩

theorem upto_zero (upper : Str → Str) (t : Symtab) (seg : Str) (out : List Src) :
    Upto upper t seg out 0 ⟨t, py "1", 0, []⟩ where
  subseg := rfl
  segs := fun tag seg' => by simp [KnownSeg]
  subs := fun tag seg' sub => by simp [KnownSub]
  errs := rfl
  diags := List.Forall₂.nil
  last := fun j s tag tt sub kind hj => absurd hj (by omega)
  old := fun tag sub kind h => rfl
  other := fun tag seg' sub kind h => rfl

/-- A line that is not a definition. -/
theorem upto_other {upper : Str → Str} {t : Symtab} {seg : Str} {out : List Src} {i : Nat}
    {st : BuildState} (h : Upto upper t seg out i st) {s : Src} (hs : out[i]? = some s)
    (hn : ∀ tag tt o, actionOf upper (srcCard s) ≠ .def_ tag tt o) {st' : BuildState}
    (h' : buildStep upper seg st (srcCard s) = .ok st') : Upto upper t seg out (i + 1) st' := by
  have hnd : ∀ s' tag tt sub kind, ¬ DefinesAt upper out i s' tag tt sub kind := by
    intro s' tag tt sub kind hd
    obtain ⟨h1, o, h2, -⟩ := (definesAt_iff _ _ _ _ _ _ _ _).1 hd
    rw [hs] at h1; cases h1
    exact hn _ _ _ h2
  have hnt : ¬ Taken upper t seg out i := by
    rintro ⟨s', tag, tt, sub, kind, hd, -⟩
    exact hnd _ _ _ _ _ hd
  have htab : st'.symtab = st.symtab := by
    rcases (buildStep_table h').2 with e | ⟨tag, tt, o, ha, -⟩
    · exact e
    · exact absurd ha (hn tag tt o)
  classical
  have hed : (st'.errcount = st.errcount + (if InError upper s then 1 else 0)) ∧
      st'.diags.filter (fun d => decide (d.err = .multiple)) =
        st.diags.filter (fun d => decide (d.err = .multiple)) := by
    rw [buildStep_eq] at h'
    cases ha : actionOf upper (srcCard s) with
    | def_ tag tt o => exact absurd ha (hn tag tt o)
    | skip =>
      rw [ha] at h'; cases h'
      have : ¬ InError upper s := fun hi => by
        obtain ⟨e, l, tt, hx⟩ := (action_err upper s).2 hi
        rw [ha] at hx; cases hx
      simp [this]
    | err e l tt =>
      rw [ha] at h'; cases h'
      have : InError upper s := (action_err upper s).1 ⟨e, l, tt, ha⟩
      have hm := action_not_multiple ha
      simp [BuildState.report, this, reportOf, hm]
  have hr : (List.range (i + 1)).filter (fun j => decide (Taken upper t seg out j)) =
      (List.range i).filter (fun j => decide (Taken upper t seg out j)) := by
    rw [List.range_succ, List.filter_append]
    simp [hnt]
  constructor
  · rw [(buildStep_table h').1, h.subseg, subBefore_succ _ hs]
  · intro tag seg'
    rw [htab, h.segs, knownSeg_succ]
    constructor
    · exact Or.inl
    · rintro (h | ⟨-, s', tt, sub, kind, hd⟩)
      · exact h
      · exact absurd hd (hnd _ _ _ _ _)
  · intro tag seg' sub
    rw [htab, h.subs, knownSub_succ]
    constructor
    · exact Or.inl
    · rintro (h | ⟨-, s', tt, kind, hd⟩)
      · exact h
      · exact absurd hd (hnd _ _ _ _ _)
  · have he := h.errs
    rw [hr, hed.1, List.take_add_one, hs, List.filter_append, List.length_append]
    by_cases hi : InError upper s
    · simp only [Option.toList, List.filter_cons, hi, decide_true, List.filter_nil,
        if_true, List.length_singleton]
      omega
    · simp only [Option.toList, List.filter_cons, hi, decide_false, List.filter_nil]
      simp
      omega
  · rw [hr, hed.2]; exact h.diags
  · intro j s' tag tt sub kind hj hd hnt' hl
    rw [htab]
    rcases Nat.lt_succ_iff_lt_or_eq.1 hj with hj | rfl
    · exact h.last j s' tag tt sub kind hj hd hnt' fun k s'' tt' h1 h2 => hl k s'' tt' h1 (by omega)
    · exact absurd hd (hnd _ _ _ _ _)
  · intro tag sub kind hl
    rw [htab]
    exact h.old tag sub kind fun k s' tt' hk => hl k s' tt' (by omega)
  · intro tag seg' sub kind hne
    rw [htab]
    exact h.other tag seg' sub kind hne

/-- A definition. -/
theorem upto_def {upper : Str → Str} {t : Symtab} {seg : Str} {out : List Src} {i : Nat}
    {st : BuildState} (h : Upto upper t seg out i st) {s : Src} (hs : out[i]? = some s)
    {tag tt o : Str} (ha : actionOf upper (srcCard s) = .def_ tag tt o) :
    (¬ TakenEquals upper t seg out i → ∃ st', buildStep upper seg st (srcCard s) = .ok st' ∧
      Upto upper t seg out (i + 1) st') ∧
    (TakenEquals upper t seg out i → buildStep upper seg st (srcCard s) =
      .error (@ite _ (KnownSub upper t seg out i tag (py "simple") (py "card"))
        (Classical.propDecidable _) PyErr.attributeError PyErr.keyError)) := by
  have hd : DefinesAt upper out i s tag tt (stepSub (subBefore (py "1") out i) (srcCard s))
      (symtypeOf o) := (definesAt_iff _ _ _ _ _ _ _ _).2 ⟨hs, o, ha, rfl, rfl⟩
  have huniq : ∀ s' tag' tt' sub' kind', DefinesAt upper out i s' tag' tt' sub' kind' →
      s' = s ∧ tag' = tag ∧ tt' = tt ∧ sub' = stepSub (subBefore (py "1") out i) (srcCard s) ∧
      kind' = symtypeOf o := by
    intro s' tag' tt' sub' kind' hd'
    obtain ⟨h1, o', h2, h3, h4⟩ := (definesAt_iff _ _ _ _ _ _ _ _).1 hd'
    rw [hs] at h1; cases h1
    rw [ha] at h2; cases h2
    exact ⟨rfl, rfl, rfl, h4, h3⟩
  generalize hsub : stepSub (subBefore (py "1") out i) (srcCard s) = sub at hd huniq
  have htk : Taken upper t seg out i ↔ (HasSub st.symtab tag seg sub ∧ HasSeg st.symtab tag (symtypeOf o)) := by
    rw [h.segs, h.subs]
    constructor
    · rintro ⟨s', tag', tt', sub', kind', h1, h2, h3⟩
      obtain ⟨rfl, rfl, rfl, rfl, rfl⟩ := huniq _ _ _ _ _ h1
      exact ⟨h2, h3⟩
    · rintro ⟨h2, h3⟩
      exact ⟨s, tag, tt, sub, _, hd, h2, h3⟩
  have hop : HasOp s o := ((action_def _ _ _ _ _).1 ha).2.2
  have heq : TakenEquals upper t seg out i ↔ Taken upper t seg out i ∧ o = py "EQUALS" := by
    unfold TakenEquals
    constructor
    · rintro ⟨h1, s', h2, h3⟩
      rw [hs] at h2; cases h2
      rw [← op_iff] at h3 hop
      rw [hop] at h3; cases h3
      exact ⟨h1, rfl⟩
    · rintro ⟨h1, rfl⟩
      exact ⟨h1, s, hs, hop⟩
  have hb : buildStep upper seg st (srcCard s) =
      define { st with subseg := sub } seg tag (symtypeOf o) o (entryOf (srcCard s) tt) := by
    rw [buildStep_eq, ha, h.subseg, hsub]
  obtain ⟨d1, d2⟩ := define_exact { st with subseg := sub } seg tag (symtypeOf o) o
    (entryOf (srcCard s) tt)
  have hni : ¬ InError upper s := fun hi => by
    obtain ⟨e, l, tt, hx⟩ := (action_err upper s).2 hi
    rw [ha] at hx; cases hx
  classical
  have hf : ((out.take (i + 1)).filter fun s => decide (InError upper s)) =
      ((out.take i).filter fun s => decide (InError upper s)) := by
    rw [List.take_add_one, hs, List.filter_append]
    simp [hni]
  constructor
  · intro hne
    by_cases ht : Taken upper t seg out i
    · have hno : o ≠ py "EQUALS" := fun e => hne (heq.2 ⟨ht, e⟩)
      obtain ⟨kinds, hk⟩ := (d2 (htk.1 ht)).1 hno
      refine ⟨_, hb.trans hk, ?_⟩
      have hr : (List.range (i + 1)).filter (fun j => decide (Taken upper t seg out j)) =
          (List.range i).filter (fun j => decide (Taken upper t seg out j)) ++ [i] := by
        rw [List.range_succ, List.filter_append]
        simp [ht]
      constructor
      · rw [subBefore_succ _ hs, hsub]; rfl
      · intro tag' seg'
        show HasSeg st.symtab tag' seg' ↔ _
        rw [h.segs, knownSeg_succ]
        constructor
        · exact Or.inl
        · rintro (h1 | ⟨rfl, s', tt', sub', kind', hd'⟩)
          · exact h1
          · obtain ⟨rfl, rfl, rfl, rfl, rfl⟩ := huniq _ _ _ _ _ hd'
            rw [← h.segs]
            obtain ⟨a, b, c, e1, e2, e3⟩ := (htk.1 ht).1
            exact ⟨a, b, e1, e2⟩
      · intro tag' seg' sub'
        show HasSub st.symtab tag' seg' sub' ↔ _
        rw [h.subs, knownSub_succ]
        constructor
        · exact Or.inl
        · rintro (h1 | ⟨rfl, s', tt', kind', hd'⟩)
          · exact h1
          · obtain ⟨rfl, rfl, rfl, rfl, rfl⟩ := huniq _ _ _ _ _ hd'
            rw [← h.subs]
            exact (htk.1 ht).1
      · rw [hr, hf, List.length_append]
        show st.errcount + 1 = _
        rw [h.errs]
        simp only [List.length_singleton]
        omega
      · rw [hr]
        show List.Forall₂ _ _ (List.filter _ (st.diags ++ [_]))
        rw [List.filter_append]
        apply List.rel_append h.diags
        simp only [List.filter_cons, decide_true, if_true, List.filter_nil]
        exact .cons ⟨s, tag, tt, sub, _, hd, rfl, rfl, rfl⟩ .nil
      · intro j s' tag' tt' sub' kind' hj hd' hnt hl
        show lookup4 st.symtab _ _ _ _ = _
        rcases Nat.lt_succ_iff_lt_or_eq.1 hj with hj | rfl
        · exact h.last j s' tag' tt' sub' kind' hj hd' hnt fun k s'' tt'' h1 h2 =>
            hl k s'' tt'' h1 (by omega)
        · exact absurd ht hnt
      · intro tag' sub' kind' hl
        exact h.old tag' sub' kind' fun k s' tt' hk => hl k s' tt' (by omega)
      · exact h.other
    · refine ⟨_, hb.trans (d1 fun h => ht (htk.2 h)), ?_⟩
      have hr : (List.range (i + 1)).filter (fun j => decide (Taken upper t seg out j)) =
          (List.range i).filter (fun j => decide (Taken upper t seg out j)) := by
        rw [List.range_succ, List.filter_append]
        simp [ht]
      constructor
      · rw [subBefore_succ _ hs, hsub]
      · intro tag' seg'
        show HasSeg (put4 st.symtab _ _ _ _ _) tag' seg' ↔ _
        rw [hasSeg_put4, h.segs, knownSeg_succ]
        constructor
        · rintro (h1 | ⟨rfl, rfl⟩)
          · exact Or.inl h1
          · exact Or.inr ⟨rfl, s, tt, sub, _, hd⟩
        · rintro (h1 | ⟨rfl, s', tt', sub', kind', hd'⟩)
          · exact Or.inl h1
          · exact Or.inr ⟨(huniq _ _ _ _ _ hd').2.1, rfl⟩
      · intro tag' seg' sub'
        show HasSub (put4 st.symtab _ _ _ _ _) tag' seg' sub' ↔ _
        rw [hasSub_put4, h.subs, knownSub_succ]
        constructor
        · rintro (h1 | ⟨rfl, rfl, rfl⟩)
          · exact Or.inl h1
          · exact Or.inr ⟨rfl, s, tt, _, hd⟩
        · rintro (h1 | ⟨rfl, s', tt', kind', hd'⟩)
          · exact Or.inl h1
          · exact Or.inr ⟨(huniq _ _ _ _ _ hd').2.1, rfl, (huniq _ _ _ _ _ hd').2.2.2.1⟩
      · rw [hr, hf]
        exact h.errs
      · rw [hr]
        exact h.diags
      · intro j s' tag' tt' sub' kind' hj hd' hnt hl
        show lookup4 (put4 st.symtab _ _ _ _ _) _ _ _ _ = _
        rw [lookup4_put4]
        rcases Nat.lt_succ_iff_lt_or_eq.1 hj with hj | rfl
        · rw [if_neg]
          · exact h.last j s' tag' tt' sub' kind' hj hd' hnt fun k s'' tt'' h1 h2 =>
              hl k s'' tt'' h1 (by omega)
          · rintro ⟨rfl, -, rfl, rfl⟩
            exact ht (hl i s tt hj (by omega) hd)
        · obtain ⟨rfl, rfl, rfl, rfl, rfl⟩ := huniq _ _ _ _ _ hd'
          rw [if_pos ⟨rfl, rfl, rfl, rfl⟩]
      · intro tag' sub' kind' hl
        show lookup4 (put4 st.symtab _ _ _ _ _) _ _ _ _ = _
        rw [lookup4_put4, if_neg]
        · exact h.old tag' sub' kind' fun k s' tt' hk => hl k s' tt' (by omega)
        · rintro ⟨rfl, -, rfl, rfl⟩
          exact ht (hl i s tt (by omega) hd)
      · intro tag' seg' sub' kind' hne
        show lookup4 (put4 st.symtab _ _ _ _ _) _ _ _ _ = _
        rw [lookup4_put4, if_neg fun hx => hne hx.2.1]
        exact h.other tag' seg' sub' kind' hne
  · intro hte
    obtain ⟨ht, rfl⟩ := heq.1 hte
    rw [hb, (d2 (htk.1 ht)).2 rfl]
    have hq : HasSub st.symtab tag (symtypeOf (py "EQUALS")) (py "card") ↔
        KnownSub upper t seg out i tag (py "simple") (py "card") := h.subs _ _ _
    by_cases hc : KnownSub upper t seg out i tag (py "simple") (py "card")
    · rw [if_pos hc]
      exact congrArg _ (if_pos (hq.2 hc))
    · rw [if_neg hc]
      exact congrArg _ (if_neg fun h => hc (hq.1 h))

/-- The cards up to line `i`, if none before is taken by an EQUALS. -/
theorem build_upto (upper : Str → Str) (t : Symtab) (seg : Str) (out : List Src) (i : Nat)
    (hi : i ≤ out.length) (h : ∀ j, j < i → ¬ TakenEquals upper t seg out j) :
    ∃ st, buildCards upper seg ⟨t, py "1", 0, []⟩ ((out.take i).map srcCard) = .ok st ∧
      Upto upper t seg out i st := by
  induction i with
  | zero => exact ⟨_, rfl, upto_zero upper t seg out⟩
  | succ i ih =>
    obtain ⟨st, h1, h2⟩ := ih (by omega) fun j hj => h j (by omega)
    have hs : out[i]? = some out[i] := List.getElem?_eq_getElem (by omega)
    have key : ∃ st', buildStep upper seg st (srcCard out[i]) = .ok st' ∧
        Upto upper t seg out (i + 1) st' := by
      by_cases hd : ∃ tag tt o, actionOf upper (srcCard out[i]) = .def_ tag tt o
      · obtain ⟨tag, tt, o, ha⟩ := hd
        exact (upto_def h2 hs ha).1 (h i (by omega))
      · have hn : ∀ tag tt o, actionOf upper (srcCard out[i]) ≠ .def_ tag tt o :=
          fun tag tt o e => hd ⟨tag, tt, o, e⟩
        cases hb : buildStep upper seg st (srcCard out[i]) with
        | ok st' => exact ⟨st', rfl, upto_other h2 hs hn hb⟩
        | error e =>
          rw [buildStep_eq] at hb
          cases ha : actionOf upper (srcCard out[i]) with
          | def_ tag tt o => exact absurd ha (hn tag tt o)
          | skip => rw [ha] at hb; cases hb
          | err e l tt => rw [ha] at hb; cases hb
    obtain ⟨st', h3, h4⟩ := key
    refine ⟨st', ?_, h4⟩
    unfold buildCards at h1 ⊢
    rw [List.take_add_one, hs, List.map_append, List.foldlM_append, h1]
    show (buildStep upper seg st (srcCard out[i]) >>= fun s => pure s) = _
    rw [h3]
    rfl

/-! ### Several files -/

/-- What is known about the table after `k` files. -/
structure After (upper : Str → Str) (srcs : List (Str × List Src)) (k : Nat) (t : Symtab) : Prop where
  segs : ∀ tag seg, HasSeg t tag seg ↔
    ∃ k' i' s tt sub kind, k' < k ∧ DefinedIn upper srcs k' i' s tag tt seg sub kind
  subs : ∀ tag seg sub, HasSub t tag seg sub ↔
    ∃ k' i' s tt kind, k' < k ∧ DefinedIn upper srcs k' i' s tag tt seg sub kind
  last : ∀ k' i s tag tt seg sub kind, k' < k → DefinedIn upper srcs k' i s tag tt seg sub kind →
    ¬ TakenIn upper srcs k' i →
    (∀ k'' i' s' tt', Earlier k' i k'' i' → k'' < k →
      DefinedIn upper srcs k'' i' s' tag tt' seg sub kind → TakenIn upper srcs k'' i') →
    lookup4 t tag seg sub kind = some (entryOf (srcCard s) tt)
  old : ∀ tag seg sub kind,
    (∀ k' i s tt, k' < k → DefinedIn upper srcs k' i s tag tt seg sub kind →
      TakenIn upper srcs k' i) → lookup4 t tag seg sub kind = none

theorem after_zero (upper : Str → Str) (srcs : List (Str × List Src)) : After upper srcs 0 [] where
  segs := fun tag seg => by simp [HasSeg, dget]
  subs := fun tag seg sub => by simp [HasSub, dget]
  last := fun k' i s tag tt seg sub kind hk => absurd hk (by omega)
  old := fun tag seg sub kind h => rfl

theorem definedIn_at {upper : Str → Str} {srcs : List (Str × List Src)} {k : Nat} {file : Str}
    {out : List Src} (hk : srcs[k]? = some (file, out)) {i : Nat} {s : Src}
    {tag tt seg sub kind : Str} : DefinedIn upper srcs k i s tag tt seg sub kind ↔
      seg = splitFirst file '.' ∧ DefinesAt upper out i s tag tt sub kind := by
  unfold DefinedIn
  constructor
  · rintro ⟨f, o, h1, h2, h3⟩
    rw [hk] at h1; cases h1
    exact ⟨(beforeFirst_unique h2).symm, h3⟩
  · rintro ⟨rfl, h⟩
    exact ⟨file, out, hk, beforeFirst _ _, h⟩

theorem known_after {upper : Str → Str} {srcs : List (Str × List Src)} {k : Nat} {t : Symtab}
    (h : After upper srcs k t) {file : Str} {out : List Src} (hk : srcs[k]? = some (file, out))
    (i : Nat) (tag seg : Str) :
    (KnownSeg upper t (splitFirst file '.') out i tag seg ↔ ∃ k' i' s tt sub kind,
      Earlier k' i' k i ∧ DefinedIn upper srcs k' i' s tag tt seg sub kind) ∧
    (∀ sub, KnownSub upper t (splitFirst file '.') out i tag seg sub ↔ ∃ k' i' s tt kind,
      Earlier k' i' k i ∧ DefinedIn upper srcs k' i' s tag tt seg sub kind) := by
  unfold KnownSeg KnownSub Earlier
  constructor
  · rw [h.segs]
    constructor
    · rintro (⟨k', i', s, tt, sub, kind, h1, h2⟩ | ⟨h1, j, s, tt, sub, kind, hj, h2⟩)
      · exact ⟨k', i', s, tt, sub, kind, Or.inl h1, h2⟩
      · exact ⟨k, j, s, tt, sub, kind, Or.inr ⟨rfl, hj⟩, (definedIn_at hk).2 ⟨h1, h2⟩⟩
    · rintro ⟨k', i', s, tt, sub, kind, h1 | ⟨rfl, hj⟩, h2⟩
      · exact Or.inl ⟨k', i', s, tt, sub, kind, h1, h2⟩
      · obtain ⟨a, b⟩ := (definedIn_at hk).1 h2
        exact Or.inr ⟨a, i', s, tt, sub, kind, hj, b⟩
  · intro sub
    rw [h.subs]
    constructor
    · rintro (⟨k', i', s, tt, kind, h1, h2⟩ | ⟨h1, j, s, tt, kind, hj, h2⟩)
      · exact ⟨k', i', s, tt, kind, Or.inl h1, h2⟩
      · exact ⟨k, j, s, tt, kind, Or.inr ⟨rfl, hj⟩, (definedIn_at hk).2 ⟨h1, h2⟩⟩
    · rintro ⟨k', i', s, tt, kind, h1 | ⟨rfl, hj⟩, h2⟩
      · exact Or.inl ⟨k', i', s, tt, kind, h1, h2⟩
      · obtain ⟨a, b⟩ := (definedIn_at hk).1 h2
        exact Or.inr ⟨a, i', s, tt, kind, hj, b⟩

theorem taken_after {upper : Str → Str} {srcs : List (Str × List Src)} {k : Nat} {t : Symtab}
    (h : After upper srcs k t) {file : Str} {out : List Src} (hk : srcs[k]? = some (file, out))
    (i : Nat) : Taken upper t (splitFirst file '.') out i ↔ TakenIn upper srcs k i := by
  unfold Taken TakenIn
  constructor
  · rintro ⟨s, tag, tt, sub, kind, h1, h2, h3⟩
    exact ⟨s, tag, tt, _, sub, kind, (definedIn_at hk).2 ⟨rfl, h1⟩,
      ((known_after h hk i tag _).2 sub).1 h2, (known_after h hk i tag _).1.1 h3⟩
  · rintro ⟨s, tag, tt, seg, sub, kind, h1, h2, h3⟩
    obtain ⟨rfl, h1'⟩ := (definedIn_at hk).1 h1
    exact ⟨s, tag, tt, sub, kind, h1', ((known_after h hk i tag _).2 sub).2 h2,
      (known_after h hk i tag _).1.2 h3⟩

theorem stops_after {upper : Str → Str} {srcs : List (Str × List Src)} {k : Nat} {t : Symtab}
    (h : After upper srcs k t) {file : Str} {out : List Src} (hk : srcs[k]? = some (file, out))
    (i : Nat) : TakenEquals upper t (splitFirst file '.') out i ↔ StopsAt upper srcs k i := by
  unfold TakenEquals StopsAt
  rw [taken_after h hk]
  constructor
  · rintro ⟨h1, s, h2, h3⟩
    exact ⟨h1, file, out, s, hk, h2, h3⟩
  · rintro ⟨h1, f, o, s, h0, h2, h3⟩
    rw [hk] at h0; cases h0
    exact ⟨h1, s, h2, h3⟩

theorem after_succ {upper : Str → Str} {srcs : List (Str × List Src)} {k : Nat} {t : Symtab}
    (h : After upper srcs k t) {file : Str} {out : List Src} (hk : srcs[k]? = some (file, out))
    {b : BuildState} (hb : Upto upper t (splitFirst file '.') out out.length b) :
    After upper srcs (k + 1) b.symtab := by
  have hlt : ∀ {i s tag tt sub kind}, DefinesAt upper out i s tag tt sub kind → i < out.length :=
    fun h => (List.getElem?_eq_some_iff.1 h.1).1
  constructor
  · intro tag seg
    rw [hb.segs, (known_after h hk _ _ _).1]
    constructor
    · rintro ⟨k', i', s, tt, sub, kind, h1, h2⟩
      exact ⟨k', i', s, tt, sub, kind, by unfold Earlier at h1; omega, h2⟩
    · rintro ⟨k', i', s, tt, sub, kind, h1, h2⟩
      refine ⟨k', i', s, tt, sub, kind, ?_, h2⟩
      rcases Nat.lt_succ_iff_lt_or_eq.1 h1 with h1 | rfl
      · exact Or.inl h1
      · exact Or.inr ⟨rfl, hlt ((definedIn_at hk).1 h2).2⟩
  · intro tag seg sub
    rw [hb.subs, (known_after h hk _ _ _).2]
    constructor
    · rintro ⟨k', i', s, tt, kind, h1, h2⟩
      exact ⟨k', i', s, tt, kind, by unfold Earlier at h1; omega, h2⟩
    · rintro ⟨k', i', s, tt, kind, h1, h2⟩
      refine ⟨k', i', s, tt, kind, ?_, h2⟩
      rcases Nat.lt_succ_iff_lt_or_eq.1 h1 with h1 | rfl
      · exact Or.inl h1
      · exact Or.inr ⟨rfl, hlt ((definedIn_at hk).1 h2).2⟩
  · intro k' i s tag tt seg sub kind hk' hd ht hl
    rcases Nat.lt_succ_iff_lt_or_eq.1 hk' with hlt' | rfl
    · have h0 := h.last k' i s tag tt seg sub kind hlt' hd ht fun k'' i' s' tt' h1 h2 =>
        hl k'' i' s' tt' h1 (by omega)
      by_cases hs : seg = splitFirst file '.'
      · subst hs
        rw [hb.old tag sub kind fun j s' tt' _ hd' => (taken_after h hk j).2
          (hl k j s' tt' (Or.inl hlt') (by omega) ((definedIn_at hk).2 ⟨rfl, hd'⟩))]
        exact h0
      · rw [hb.other tag seg sub kind hs]; exact h0
    · obtain ⟨rfl, hd'⟩ := (definedIn_at hk).1 hd
      exact hb.last i s tag tt sub kind (hlt hd') hd' (fun hx => ht ((taken_after h hk i).1 hx))
        fun j s' tt' hj _ hd'' => (taken_after h hk j).2
          (hl k' j s' tt' (Or.inr ⟨rfl, hj⟩) (by omega) ((definedIn_at hk).2 ⟨rfl, hd''⟩))
  · intro tag seg sub kind hl
    have h0 := h.old tag seg sub kind fun k' i s tt hk' => hl k' i s tt (by omega)
    by_cases hs : seg = splitFirst file '.'
    · subst hs
      rw [hb.old tag sub kind fun j s' tt' _ hd' => (taken_after h hk j).2
          (hl k j s' tt' (by omega) ((definedIn_at hk).2 ⟨rfl, hd'⟩))]
      exact h0
    · rw [hb.other tag seg sub kind hs]; exact h0

/-- The table of the last of the states. -/
def lastTable (bs : List BuildState) : Symtab := (bs.getLast?.map (·.symtab)).getD []

theorem lastTable_append (bs : List BuildState) (b : BuildState) : lastTable (bs ++ [b]) = b.symtab := by
  simp [lastTable]

theorem tab_foldl {ρ : Type} {tab : ρ → Symtab} {upd : ρ → BuildState → ρ} {r : ρ}
    (h0 : tab r = []) (hu : ∀ r b, tab (upd r b) = b.symtab) (bs : List BuildState) :
    tab (bs.foldl upd r) = lastTable bs := by
  rcases List.eq_nil_or_concat bs with rfl | ⟨l, b, rfl⟩
  · exact h0
  · rw [List.concat_eq_append, List.foldl_append, lastTable_append]
    exact hu _ _

open Classical in
/-- The first `k` files, if none of their lines stops the reading. -/
theorem files_upto (upper : Str → Str) (fs : FileSystem) (srcs : List (Str × List Src))
    (hne : ∀ p ∈ srcs, p.1 ≠ []) (he : ∀ p ∈ srcs, Expands fs p.1 p.2) (k : Nat)
    (hk : k ≤ srcs.length) (hs : ∀ k' i, k' < k → ¬ StopsAt upper srcs k' i) :
    ∃ n bs, bs.length = k ∧ After upper srcs k (lastTable bs) ∧
      (∀ (k' : Nat) (b : BuildState) (f : Str) (o : List Src), bs[k']? = some b → srcs[k']? = some (f, o) →
        b.errcount = (o.filter fun s => decide (InError upper s)).length +
          ((List.range o.length).filter fun i => decide (TakenIn upper srcs k' i)).length) ∧
      ∀ m, n ≤ m → ∀ (ρ : Type) (tab : ρ → Symtab) (upd : ρ → BuildState → ρ) (r : ρ),
        tab r = [] → (∀ r b, tab (upd r b) = b.symtab) →
        ((srcs.take k).map (·.1)).foldlM (fun r f => do
          let b ← buildSymbolTable upper fs m f (tab r)
          return upd r b) r = Except.ok (ε := PyErr) (bs.foldl upd r) := by
  induction k with
  | zero => exact ⟨0, [], rfl, after_zero upper srcs, by simp, fun m _ ρ tab upd r _ _ => rfl⟩
  | succ k ih =>
    obtain ⟨n, bs, h1, h2, h3, h4⟩ := ih (by omega) fun k' i hk' => hs k' i (by omega)
    have hlt : k < srcs.length := by omega
    have hget : srcs[k]? = some (srcs[k].1, srcs[k].2) := List.getElem?_eq_getElem hlt
    have hmem : srcs[k] ∈ srcs := List.getElem_mem hlt
    obtain ⟨n', hn'⟩ := build_complete (upper := upper) (t := lastTable bs) (hne _ hmem) (he _ hmem)
    obtain ⟨b, hb1, hb2⟩ := build_upto upper (lastTable bs) (splitFirst srcs[k].1 '.') srcs[k].2
      srcs[k].2.length (Nat.le_refl _)
      fun j _ hx => hs k j (by omega) ((stops_after h2 hget j).1 hx)
    rw [List.take_length] at hb1
    refine ⟨max n n', bs ++ [b], by simp [h1], ?_, ?_, ?_⟩
    · rw [lastTable_append]; exact after_succ h2 hget hb2
    · intro k' b' f o hb' hf
      rcases Nat.lt_or_ge k' bs.length with hlt' | hge
      · rw [List.getElem?_append_left hlt'] at hb'
        exact h3 k' b' f o hb' hf
      · rw [List.getElem?_append_right hge] at hb'
        have : k' - bs.length = 0 := by
          have := (List.getElem?_eq_some_iff.1 hb').1
          simp at this
          omega
        rw [this] at hb'
        have hkk : k' = k := by omega
        subst hkk
        cases hb'
        rw [hget] at hf
        cases hf
        have := hb2.errs
        rw [List.take_length] at this
        rw [this]
        congr 2
        apply List.filter_congr
        intro i _
        simp only [taken_after h2 hget i]
    · intro m hm ρ tab upd r h0 hu
      rw [List.take_add_one, List.getElem?_eq_getElem hlt, List.map_append, List.foldlM_append,
        h4 m (by omega) ρ tab upd r h0 hu]
      show ((do
          let b ← buildSymbolTable upper fs m srcs[k].1 (tab (bs.foldl upd r))
          return upd (bs.foldl upd r) b) >>= fun s => pure s) = _
      rw [tab_foldl h0 hu, hn' m (by omega), hb1, List.foldl_append]
      rfl

/-- A file with a line that stops the reading, after files without. -/
theorem files_stop (upper : Str → Str) (fs : FileSystem) (srcs : List (Str × List Src))
    (hne : ∀ p ∈ srcs, p.1 ≠ []) (he : ∀ p ∈ srcs, Expands fs p.1 p.2) (k i : Nat)
    (h : StopsAt upper srcs k i) :
    ∃ n e, (e = PyErr.keyError ∨ e = PyErr.attributeError) ∧
      ∀ m, n ≤ m → ∀ (ρ : Type) (tab : ρ → Symtab) (upd : ρ → BuildState → ρ) (r : ρ),
        tab r = [] → (∀ r b, tab (upd r b) = b.symtab) →
        (srcs.map (·.1)).foldlM (fun r f => do
          let b ← buildSymbolTable upper fs m f (tab r)
          return upd r b) r = Except.error e := by
  classical
  have hex : ∃ k i, StopsAt upper srcs k i := ⟨k, i, h⟩
  have hk := Nat.find_spec hex
  have hmin : ∀ k', k' < Nat.find hex → ∀ i, ¬ StopsAt upper srcs k' i := fun k' hk' i hx =>
    Nat.find_min hex hk' ⟨i, hx⟩
  generalize Nat.find hex = k0 at hk hmin
  have hi := Nat.find_spec hk
  have himin : ∀ i', i' < Nat.find hk → ¬ StopsAt upper srcs k0 i' := fun i' hi' => Nat.find_min hk hi'
  generalize Nat.find hk = i0 at hi himin
  obtain ⟨f, out, s, hget, hs, hop⟩ := hi.2
  have hlt : k0 < srcs.length := (List.getElem?_eq_some_iff.1 hget).1
  have hmem : (f, out) ∈ srcs := List.mem_of_getElem? hget
  obtain ⟨n, bs, h1, h2, -, h4⟩ := files_upto upper fs srcs hne he k0 (by omega)
    fun k' i hk' => hmin k' hk' i
  obtain ⟨n', hn'⟩ := build_complete (upper := upper) (t := lastTable bs) (hne _ hmem) (he _ hmem)
  obtain ⟨st, hst1, hst2⟩ := build_upto upper (lastTable bs) (splitFirst f '.') out i0
    (Nat.le_of_lt (List.getElem?_eq_some_iff.1 hs).1)
    fun j hj hx => himin j hj ((stops_after h2 hget j).1 hx)
  have hte := (stops_after h2 hget i0).2 hi
  obtain ⟨s', tag, tt, sub, kind, hd, -⟩ := hte.1
  obtain ⟨hs', o, ha, -⟩ := (definesAt_iff _ _ _ _ _ _ _ _).1 hd
  rw [hs] at hs'; cases hs'
  have hstep := (upto_def hst2 hs ha).2 hte
  obtain ⟨e, hee, hstep⟩ : ∃ e, (e = PyErr.keyError ∨ e = PyErr.attributeError) ∧
      buildStep upper (splitFirst f '.') st (srcCard s) = .error e := by
    refine ⟨_, ?_, hstep⟩
    split
    · exact Or.inr rfl
    · exact Or.inl rfl
  have hfail : buildCards upper (splitFirst f '.') ⟨lastTable bs, py "1", 0, []⟩ (out.map srcCard) =
      .error e := by
    have hlt' := (List.getElem?_eq_some_iff.1 hs).1
    have hsplit : out = out.take i0 ++ s :: out.drop (i0 + 1) := by
      have : out[i0] = s := Option.some.inj ((List.getElem?_eq_getElem hlt').symm.trans hs)
      rw [← this, ← List.drop_eq_getElem_cons hlt', List.take_append_drop]
    rw [hsplit, List.map_append, List.map_cons]
    unfold buildCards at hst1 ⊢
    rw [List.foldlM_append, hst1]
    show (buildStep upper (splitFirst f '.') st (srcCard s) >>= _) = _
    rw [hstep]
    rfl
  refine ⟨max n n', e, hee, fun m hm ρ tab upd r h0 hu => ?_⟩
  have hsp : srcs = srcs.take k0 ++ (f, out) :: srcs.drop (k0 + 1) := by
    have : srcs[k0] = (f, out) := Option.some.inj ((List.getElem?_eq_getElem hlt).symm.trans hget)
    rw [← this, ← List.drop_eq_getElem_cons hlt, List.take_append_drop]
  have h4' := h4 m (by omega) ρ tab upd r h0 hu
  generalize srcs.take k0 = pre at hsp h4'
  generalize srcs.drop (k0 + 1) = post at hsp
  rw [hsp, List.map_append, List.foldlM_append, h4', List.map_cons]
  show (List.foldlM (m := Except PyErr) (fun r f => do
      let b ← buildSymbolTable upper fs m f (tab r)
      return upd r b) (bs.foldl upd r) (f :: post.map (·.1))) = _
  rw [List.foldlM_cons, tab_foldl h0 hu, hn' m (by omega), hfail]
  rfl

/-- Every definition in the table has a file. -/
theorem after_file {upper : Str → Str} {srcs : List (Str × List Src)} {k : Nat} {t : Symtab}
    (h : After upper srcs k t) {tag seg sub kind : Str} {e : SymEntry}
    (he : lookup4 t tag seg sub kind = some e) :
    ∃ k' i s tt, k' < k ∧ DefinedIn upper srcs k' i s tag tt seg sub kind ∧
      ¬ TakenIn upper srcs k' i ∧
      (∀ k'' i' s' tt', Earlier k' i k'' i' → k'' < k →
        DefinedIn upper srcs k'' i' s' tag tt' seg sub kind → TakenIn upper srcs k'' i') ∧
      e = entryOf (srcCard s) tt := by
  classical
  by_cases hx : ∃ k' i, k' < k ∧ ∃ s tt, DefinedIn upper srcs k' i s tag tt seg sub kind ∧
      ¬ TakenIn upper srcs k' i
  · obtain ⟨k1, i1, hk1, hd1⟩ := hx
    obtain ⟨k2, hk2, hl2⟩ := last_index (P := fun k' => k' < k ∧ ∃ i s tt,
      DefinedIn upper srcs k' i s tag tt seg sub kind ∧ ¬ TakenIn upper srcs k' i) (n := k)
      ⟨hk1, i1, hd1⟩ fun j hj => hj.1
    obtain ⟨hlt, i2, hd2⟩ := hk2
    have hb : ∃ n, ∀ j, (∃ s tt, DefinedIn upper srcs k2 j s tag tt seg sub kind ∧
        ¬ TakenIn upper srcs k2 j) → j < n := by
      obtain ⟨s, tt, ⟨f, o, hg, -⟩, -⟩ := hd2
      refine ⟨o.length, ?_⟩
      rintro j ⟨s', tt', ⟨f', o', hg', -, hda⟩, -⟩
      rw [hg] at hg'; cases hg'
      exact (List.getElem?_eq_some_iff.1 hda.1).1
    obtain ⟨n, hn⟩ := hb
    obtain ⟨i3, ⟨s, tt, hd3, hnt⟩, hl3⟩ := last_index (P := fun j => ∃ s tt,
      DefinedIn upper srcs k2 j s tag tt seg sub kind ∧ ¬ TakenIn upper srcs k2 j) hd2 hn
    have hlater : ∀ k'' i' s' tt', Earlier k2 i3 k'' i' → k'' < k →
        DefinedIn upper srcs k'' i' s' tag tt' seg sub kind → TakenIn upper srcs k'' i' := by
      intro k'' i' s' tt' hE hk'' hd'
      by_contra hcon
      rcases hE with hE | ⟨rfl, hE⟩
      · exact hl2 k'' hE ⟨hk'', i', s', tt', hd', hcon⟩
      · exact hl3 i' hE ⟨s', tt', hd', hcon⟩
    refine ⟨k2, i3, s, tt, hlt, hd3, hnt, hlater, ?_⟩
    rw [h.last k2 i3 s tag tt seg sub kind hlt hd3 hnt hlater] at he
    exact (Option.some.inj he).symm
  · rw [h.old tag seg sub kind fun k' i s tt hk' hd => by
      by_contra hcon
      exact hx ⟨k', i, hk', s, tt, hd, hcon⟩] at he
    cases he

end H800
