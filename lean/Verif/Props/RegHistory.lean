import Verif.Props.Registers
import Verif.Spec.RegHistory

/-!
Property C126: histories of a register file that mix writes, iteration and the collective clears.
-/

namespace H800

open Spec

/-- C126, in full: each register holds its last value; the collective clears are writes of 0. -/
def C126_statement : Prop := ∀ (w : Int) (s0 : Registers), Registers.init w = .ok s0 →
  ∀ ops : List RegOp, (∀ op ∈ ops, ValuesFit op) → ∀ (g : FKey) (k : GKey) (a b : Nat),
    groupIndex g = some a → regIndex k = some b →
    ∃ r, (ops.foldl RegOp.run s0).reg g k = .ok r ∧
      r.value = ops.foldl (regStepIdeal w.toNat) (fun _ _ => 0) a b

theorem run_state (W : Nat) (hW : 1 ≤ W) (st : RegState) (hc : st.file ≤ 8)
    (hgc : ∀ g, st.group g ≤ 32) (hm : ∀ g n, Fits W (st.mem g n)) (op : RegOp)
    (hop : ValuesFit op) :
    RegOp.run (canon W st.mem st.group st.file) op =
        canon W (st.step W op).mem (st.step W op).group (st.step W op).file ∧
      (st.step W op).file ≤ 8 ∧ (∀ g, (st.step W op).group g ≤ 32) ∧
      ∀ g n, Fits W ((st.step W op).mem g n) := by
  have h0 : Fits W 0 := ⟨le_refl _, by positivity⟩
  obtain ⟨m, gc, c⟩ := st
  simp only at hc hgc hm ⊢
  cases op with
  | write g k v =>
    refine ⟨onReg_canon W m gc c g k _ (fun u => if Fits W v then v else u) ?_, hc, hgc,
      regStep_fits W m (.write g k v) trivial hm⟩
    intro a b _ _
    rw [mkReg_setValue W b hW]; split <;> rfl
  | bit g k i x =>
    refine ⟨onReg_canon W m gc c g k _ (fun u =>
        if 1 ≤ i ∧ i ≤ W then putField u (W - i).toNat 1 x else u) ?_, hc, hgc,
      regStep_fits W m (.bit g k i x) hop hm⟩
    intro a b _ _
    exact mkReg_bit W b (m a b) i x (hm a b) hop
  | slice g k s e x =>
    refine ⟨onReg_canon W m gc c g k _ (fun u => if 1 ≤ s ∧ s ≤ e ∧ e ≤ W then
        putField u (W - e).toNat (e - s + 1).toNat x else u) ?_, hc, hgc,
      regStep_fits W m (.slice g k s e x) hop hm⟩
    intro a b _ _
    exact mkReg_slice W b (m a b) s e x (hm a b) hop
  | clearReg g k =>
    exact ⟨onReg_canon W m gc c g k _ (fun _ => 0) (fun a b _ _ => mkReg_clear W b _), hc, hgc,
      regStep_fits W m (.clearReg g k) trivial hm⟩
  | next g =>
    simp only [RegOp.run, getitem_canon, RegState.step]
    cases hg : groupIndex g with
    | none => exact ⟨rfl, hc, hgc, hm⟩
    | some a =>
      refine ⟨next_op W m gc c a (groupIndex_lt hg) (hgc a), hc, ?_, hm⟩
      intro x; simp only; split; omega; exact hgc x
  | clearGroup g =>
    simp only [RegOp.run, getitem_canon, RegState.step]
    cases hg : groupIndex g with
    | none => exact ⟨rfl, hc, hgc, hm⟩
    | some a =>
      simp only
      rw [clearGroupRef_canon W m gc c a (groupIndex_lt hg) (hgc a)]
      refine ⟨rfl, hc, ?_, ?_⟩
      · intro x; split; omega; exact hgc x
      · intro x y; split; exact h0; exact hm x y
  | nextFile =>
    simp only [RegOp.run, next_canon W m gc c hc, RegState.step]
    by_cases h : c = 8
    · rw [if_pos h]; subst h; exact ⟨rfl, by omega, hgc, hm⟩
    · rw [if_neg h, Nat.min_eq_right (by omega : c + 1 ≤ 8)]; exact ⟨rfl, by omega, hgc, hm⟩
  | clearFile =>
    simp only [RegOp.run, RegState.step, clear_canon W m gc c hc hgc]
    refine ⟨rfl, by omega, ?_, ?_⟩
    · intro x; split; omega; exact hgc x
    · intro x y; split; exact h0; exact hm x y

theorem runs_state (W : Nat) (hW : 1 ≤ W) (ops : List RegOp) : ∀ st : RegState, st.file ≤ 8 →
    (∀ g, st.group g ≤ 32) → (∀ g n, Fits W (st.mem g n)) → (∀ op ∈ ops, ValuesFit op) →
    ∃ st', ops.foldl (RegState.step W) st = st' ∧
      ops.foldl RegOp.run (canon W st.mem st.group st.file) =
        canon W st'.mem st'.group st'.file ∧
      st'.file ≤ 8 ∧ (∀ g, st'.group g ≤ 32) ∧ ∀ g n, Fits W (st'.mem g n) := by
  induction ops with
  | nil => intro st hc hgc hm _; exact ⟨st, rfl, rfl, hc, hgc, hm⟩
  | cons op ops ih =>
    intro st hc hgc hm hops
    obtain ⟨h1, h2, h3, h4⟩ := run_state W hW st hc hgc hm op (hops op List.mem_cons_self)
    rw [List.foldl_cons, List.foldl_cons, h1]
    exact ih _ h2 h3 h4 (fun o ho => hops o (List.mem_cons_of_mem _ ho))

/-- C126, what holds of every history: the registers hold what the abstract file with positions
holds, `next` of a group and of the file deliver the register and the group at the position, and
StopIteration is raised at the end. -/
theorem C126_history_partial (w : Int) (hw : w = 16 ∨ w = 24) :
    ∃ s0, Registers.init w = .ok s0 ∧ ∀ ops : List RegOp, (∀ op ∈ ops, ValuesFit op) →
      ∃ st, ops.foldl (RegState.step w.toNat) RegState.new = st ∧
        (∀ (g : FKey) (k : GKey) (a b : Nat), groupIndex g = some a → regIndex k = some b →
          ∃ r, (ops.foldl RegOp.run s0).reg g k = .ok r ∧ r.value = st.mem a b ∧
            Fits w.toNat r.value ∧ r.name = regNames[b]? ∧ (r.width : Int) = w) ∧
        (∀ a : Nat, a < 8 → ∃ gr grp, (ops.foldl RegOp.run s0).getitem (.num a) = .ok gr ∧
          (ops.foldl RegOp.run s0).groups[gr]? = some grp ∧
          grp.next.2 = if st.group a < 32 then
            ((ops.foldl RegOp.run s0).regRef (.num a) (.num (st.group a))).map some else .ok none) ∧
        (ops.foldl RegOp.run s0).next.2 = if st.file < 8 then
          ((ops.foldl RegOp.run s0).getitem (.num st.file)).map some else .ok none := by
  refine ⟨_, file_init w hw, ?_⟩
  intro ops hops
  have h0 : Fits w.toNat 0 := ⟨le_refl _, by positivity⟩
  obtain ⟨st, h1, h2, h3, h4, h5⟩ := runs_state w.toNat (by omega) ops RegState.new (Nat.zero_le _)
    (fun _ => Nat.zero_le _) (fun _ _ => h0) hops
  refine ⟨st, h1, ?_, ?_, ?_⟩
  · intro g k a b ha hb
    have := h2
    unfold RegState.new at this
    rw [this, reg_canon, ha, hb]
    exact ⟨_, rfl, rfl, h5 a b, rfl, by simp only [mkReg]; omega⟩
  · intro a ha
    have := h2
    unfold RegState.new at this
    rw [this]
    refine ⟨a, ⟨w.toNat, dictOf (32 * a), st.group a⟩, ?_, groupsOf_get _ _ a ha, ?_⟩
    · rw [getitem_canon, groupIndex_nat ha]
    · rw [next_group _ _ _ (h4 a)]
      by_cases h : st.group a = 32
      · rw [if_pos h, if_neg (by omega)]
      · have hlt : st.group a < 32 := by have := h4 a; omega
        rw [if_neg h, if_pos hlt, regRef_canon, groupIndex_nat ha, regIndex_nat hlt]
        rfl
  · have := h2
    unfold RegState.new at this
    rw [this, next_canon _ _ _ _ h3]
    by_cases h : st.file = 8
    · rw [if_pos h, if_neg (by omega)]
    · have hlt : st.file < 8 := by omega
      rw [if_neg h, if_pos hlt, getitem_canon, groupIndex_nat hlt]
      rfl

/-- A history in which a clear does nothing: the group was cleared before. -/
def lateClear : List RegOp :=
  [.clearGroup (.num 0), .write (.num 0) (.num 3) 5, .clearGroup (.num 0), .nextFile]

/-- C126 is false: a second clear of a group, or a clear of the file after it, zeroes nothing. -/
theorem C126_refuted : ¬ C126_statement := by
  intro h
  obtain ⟨s0, h0, h1⟩ := C126_history_partial 16 (Or.inl rfl)
  have hf : ∀ op ∈ lateClear, ValuesFit op := by decide
  obtain ⟨st, rfl, h2, -⟩ := h1 lateClear hf
  obtain ⟨r, h3, h4, -⟩ := h2 (.num 0) (.num 3) 0 3 (by decide) (by decide)
  obtain ⟨r', h5, h6⟩ := h 16 s0 h0 lateClear hf (.num 0) (.num 3) 0 3 (by decide) (by decide)
  rw [h3] at h5
  cases h5
  rw [h4] at h6
  revert h6
  decide

/-- C126, an example: what the history above leaves. -/
example : (∀ op ∈ lateClear, ValuesFit op) ∧
    (lateClear.foldl (RegState.step 16) RegState.new).mem 0 3 = 5 ∧
    (lateClear.foldl (RegState.step 16) RegState.new).group 0 = 32 ∧
    (lateClear.foldl (RegState.step 16) RegState.new).file = 1 := by decide

end H800
