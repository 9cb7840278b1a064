import Verif.Lemmas.Registers

/-!
Properties C20-C28: registers, register groups and the register file.
-/

namespace H800

open Spec

/-! ### C20 -/

/-- A register obtained from the constructor by any history of writes. -/
inductive RegisterReach : Register → Prop
  | init {data : Int} {name : Option Str} {width : Int} {r : Register} :
      Register.init data name width = .ok r → RegisterReach r
  | setValue {r : Register} (v : Int) : RegisterReach r → RegisterReach (r.setValue v).1
  | setitem {r : Register} (k : Key) (x : Int) : RegisterReach r → RegisterReach (r.setitem k x).1
  | clear {r : Register} : RegisterReach r → RegisterReach r.clear

theorem registerReach_shape {r : Register} (h : RegisterReach r) :
    (r.width = 16 ∨ r.width = 24) ∧ r.data = ⟨r.width, r.value, .msb1, .msbLeft⟩ := by
  induction h with
  | init h =>
    rw [register_init] at h
    split at h
    · rename_i hc
      injection h with h; subst h
      refine ⟨?_, rfl⟩
      simp only
      omega
    · cases h
  | setValue v _ ih =>
    unfold Register.setValue
    split
    · exact ih
    · refine ⟨ih.1, ?_⟩
      simp only [Register.value]
      rw [setitem_shape, ih.2]
  | setitem k x _ ih =>
    refine ⟨ih.1, ?_⟩
    simp only [Register.setitem, Register.value]
    rw [setitem_shape, ih.2]
  | clear _ ih =>
    refine ⟨ih.1, ?_⟩
    simp only [Register.clear, Register.value, BitField.clear]
    rw [ih.2]

/-- C20, constructor: exactly the documented widths, values and names; the value reads back. -/
theorem C20_register_init (v : Int) (name : Option Str) (w : Int) :
    ((∃ r, Register.init v name w = .ok r) ↔
      (w = 16 ∨ w = 24) ∧ Fits w.toNat v ∧
        (name = none ∨ name = some [] ∨ ∃ s ∈ regNames ++ aliasNames, name = some s)) ∧
    (∀ r, Register.init v name w = .ok r → r.value = v ∧ r.name = name ∧ (r.len : Int) = w) ∧
    (∀ e, Register.init v name w = .error e → e = .valueError) := by
  have hN : REGISTER_NAMES = regNames ++ aliasNames := by decide
  rw [register_init, hN]
  by_cases h : (w = 16 ∨ w = 24) ∧ Fits w.toNat v ∧
        (name = none ∨ name = some [] ∨ ∃ s ∈ regNames ++ aliasNames, name = some s)
  · rw [if_pos h]
    refine ⟨⟨fun _ => h, fun _ => ⟨_, rfl⟩⟩, ?_, ?_⟩
    · intro r hr; injection hr with hr; subst hr
      exact ⟨rfl, rfl, by simp only [Register.len]; omega⟩
    · intro e he; cases he
  · rw [if_neg h]
    refine ⟨Iff.intro (fun hr => by obtain ⟨r, hr⟩ := hr; cases hr) (fun h' => absurd h' h), ?_, ?_⟩
    · intro r hr; cases hr
    · intro e he; injection he with he; exact he.symm

/-- C20, the `value` setter of any register, whatever was done to it before. -/
theorem C20_register_setValue (r : Register) (hr : RegisterReach r) (v : Int) :
    (Fits r.width v → (r.setValue v).2 = .ok () ∧ (r.setValue v).1.value = v ∧
      (r.setValue v).1.name = r.name ∧ (r.setValue v).1.width = r.width) ∧
    (¬ Fits r.width v → r.setValue v = (r, .error .valueError)) := by
  obtain ⟨h1, h2⟩ := registerReach_shape hr
  obtain ⟨d, nm, W⟩ := r
  simp only [Register.value] at *
  rw [h2]
  unfold Register.setValue
  constructor
  · intro hv
    rw [if_neg ((fitsW _ _).1 hv)]
    simp only
    rw [full_set' W (by omega) _ v hv]
    simp
  · intro hv
    rw [if_pos (by rw [fitsW] at hv; exact not_not.1 hv)]

example : ∃ r, Register.init 65535 (some (py "X3")) 16 = .ok r ∧ RegisterReach r ∧
    Fits r.width 7 ∧ ¬ Fits r.width 65536 := by
  have h := register_init 65535 (some (py "X3")) 16
  rw [if_pos ⟨Or.inl rfl, by decide, Or.inr (Or.inr ⟨py "X3", by decide, rfl⟩)⟩] at h
  exact ⟨_, h, .init h, by decide, by decide⟩

/-! ### C21 -/

/-- C21: numbers to names and names to numbers, for every integer and every string. -/
theorem C21_names (n : Int) (s : Str) :
    registerName n = (if 0 ≤ n ∧ n < 32 then
      (match regNames[n.toNat]? with | some t => .ok t | none => .error .valueError)
      else .error .valueError) ∧
    registerAlias n = (if 28 ≤ n ∧ n < 32 then
      (match aliasNames[(n - 28).toNat]? with | some t => .ok t | none => .error .valueError)
      else registerName n) ∧
    registerNumber s = (if s ∈ regNames then .ok (regNames.idxOf s : Int)
      else if s ∈ aliasNames then .ok (28 + (aliasNames.idxOf s : Int)) else .error .valueError) := by
  refine ⟨?_, ?_, ?_⟩
  · unfold registerName; rw [nameOf_REGISTERS]
    by_cases h : 0 ≤ n ∧ n < 32
    · rw [if_pos h, if_pos h]; cases regNames[n.toNat]? <;> rfl
    · rw [if_neg h, if_neg h]
  · unfold registerAlias; rw [nameOf_ALIASES]
    by_cases h : 28 ≤ n ∧ n < 32
    · rw [if_pos h, if_pos h]
      have : (n - 28).toNat < 4 := by omega
      rw [List.getElem?_eq_getElem (show (n - 28).toNat < aliasNames.length from this)]
    · rw [if_neg h, if_neg h]
      rfl
  · unfold registerNumber
    rw [dget_REGISTERS]
    simp only [regIndex]
    by_cases h : s ∈ regNames
    · rw [if_pos h, if_pos h]; rfl
    · rw [if_neg h, if_neg h]
      simp only [Option.map_none]
      by_cases h1 : s = py "RAC"
      · subst h1; decide
      by_cases h2 : s = py "DRAC"
      · subst h2; decide
      by_cases h3 : s = py "WAC"
      · subst h3; decide
      by_cases h4 : s = py "DWAC"
      · subst h4; decide
      have h5 : s ∉ aliasNames := by
        unfold aliasNames
        simp only [List.mem_cons, h1, h2, h3, h4, List.not_mem_nil, or_self, not_false_eq_true]
      rw [if_neg h5]
      have h6 : dget ALIASES s = none := by
        unfold ALIASES
        simp only [dget, Ne.symm h1, Ne.symm h2, Ne.symm h3, Ne.symm h4, if_false]
      rw [h6]

/-- C21: the two directions are inverse, for plain names and aliases. -/
theorem C21_round_trip (n : Int) (h : 0 ≤ n ∧ n < 32) :
    ∃ s t, registerName n = .ok s ∧ registerNumber s = .ok n ∧
      registerAlias n = .ok t ∧ registerNumber t = .ok n := by
  obtain ⟨k, rfl⟩ := Int.eq_ofNat_of_zero_le h.1
  have : ∀ k < 32, ∃ s ∈ regNames, ∃ t ∈ regNames ++ aliasNames, registerName (k : Nat) = .ok s ∧
      registerNumber s = .ok (k : Nat) ∧ registerAlias (k : Nat) = .ok t ∧
      registerNumber t = .ok (k : Nat) := by decide +kernel
  obtain ⟨s, _, t, _, h⟩ := this k (by omega)
  exact ⟨s, t, h⟩

example : regNames.length = 32 ∧ aliasNames.length = 4 ∧ (regNames ++ aliasNames).Nodup := by decide

/-! ### C22, C23, C26, C27: single groups -/

/-- A group obtained from `RegisterGroup(width)` by a history of iteration, `clear` and
assignments. `base` is the number of registers that existed before. -/
def GroupReach (base : Nat) (g : RegisterGroup) : Prop :=
  ∃ (heap heap' : List Register) (w : Int) (g0 : RegisterGroup) (ops : List GroupOp),
    RegisterGroup.init heap w = .ok (heap', g0) ∧ heap.length = base ∧ g = ops.foldl GroupOp.run g0

theorem groupLoop_bad (w : Int) (hw : ¬ (w = 16 ∨ w = 24)) (heap : List Register) :
    RegisterGroup.init heap w = .error .valueError := by
  unfold RegisterGroup.init
  have : REGISTERS = (py "AU1", 0) :: REGISTERS.tail := rfl
  rw [this]
  unfold RegisterGroup.initLoop
  rw [register_init, if_neg (fun h => hw h.1)]
  rfl

theorem groupReach_inv {base : Nat} {g : RegisterGroup} (h : GroupReach base g) : GroupInv base g := by
  obtain ⟨heap, heap', w, g0, ops, h0, h1, rfl⟩ := h
  apply groupInv_runs
  by_cases hw : w = 16 ∨ w = 24
  · rw [group_init w hw] at h0
    injection h0 with h0
    injection h0 with _ h0
    subst h0
    refine ⟨by simp, fun n => ?_⟩
    rw [← h1]; exact dict_get _ n
  · rw [groupLoop_bad w hw] at h0; cases h0

/-- Some group is reachable, after iterating, clearing and assigning. -/
theorem groupReach_example (ops : List GroupOp) :
    ∃ g, GroupReach 0 g ∧ g = ops.foldl GroupOp.run ⟨16, dictOf 0, 0⟩ :=
  ⟨_, ⟨[], _, 16, _, ops, group_init 16 (Or.inl rfl) [], rfl, rfl⟩, rfl⟩

/-- C22: a group is indexed by the 32 names and the 32 numbers, which agree; the 32 registers are
different objects; every other subscript raises ValueError. Holds whatever was done to the group. -/
theorem C22_lookup (base : Nat) (g : RegisterGroup) (hg : GroupReach base g) :
    (∀ s, s ∈ regNames → ∃ r, g.getitem (.name s) = .ok r ∧
      g.getitem (.num (regNames.idxOf s)) = .ok r) ∧
    (∀ s, s ∉ regNames → g.getitem (.name s) = .error .valueError) ∧
    (∀ n : Int, 0 ≤ n → n < 32 → ∃ r, g.getitem (.num n) = .ok r) ∧
    (∀ n n' : Int, 0 ≤ n → n < 32 → 0 ≤ n' → n' < 32 → g.getitem (.num n) = g.getitem (.num n') →
      n = n') ∧
    (∀ n : Int, ¬ (0 ≤ n ∧ n < 32) → g.getitem (.num n) = .error .valueError) ∧
    g.getitem .slice = .error .valueError := by
  have hi := groupReach_inv hg
  refine ⟨?_, ?_, ?_, ?_, ?_, rfl⟩
  · intro s hs
    refine ⟨base + regNames.idxOf s, ?_, ?_⟩
    · rw [groupInv_getitem hi]; simp only [regIndex]; rw [if_pos hs]
    · rw [groupInv_getitem hi]; simp only [regIndex]
      have : regNames.idxOf s < 32 := regIndex_lt (k := .name s) (by simp only [regIndex]; rw [if_pos hs])
      rw [if_pos (by omega)]; rfl
  · intro s hs; rw [groupInv_getitem hi]; simp only [regIndex]; rw [if_neg hs]
  · intro n h0 h1; rw [groupInv_getitem hi]; simp only [regIndex]; rw [if_pos ⟨h0, h1⟩]; exact ⟨_, rfl⟩
  · intro n n' h0 h1 h0' h1' h
    rw [groupInv_getitem hi, groupInv_getitem hi] at h
    simp only [regIndex] at h
    rw [if_pos ⟨h0, h1⟩, if_pos ⟨h0', h1'⟩] at h
    injection h with h
    omega
  · intro n h; rw [groupInv_getitem hi]; simp only [regIndex]; rw [if_neg h]

/-- C23, the property as stated. -/
def C23_statement : Prop :=
  ∀ (base : Nat) (g : RegisterGroup), GroupReach base g → ∀ s ∈ aliasNames,
    ∃ n, registerNumber s = .ok n ∧ g.getitem (.name s) = g.getitem (.num n)

/-- C23 is false in every state: no alias can be used as a subscript, although `registerNumber`
knows them all. -/
theorem C23_refuted : ¬ C23_statement ∧
    ∀ (base : Nat) (g : RegisterGroup), GroupReach base g → ∀ s ∈ aliasNames,
      g.getitem (.name s) = .error .valueError ∧ ∃ n r, registerNumber s = .ok n ∧
        g.getitem (.num n) = .ok r := by
  have h2 : ∀ (base : Nat) (g : RegisterGroup), GroupReach base g → ∀ s ∈ aliasNames,
      g.getitem (.name s) = .error .valueError ∧ ∃ n r, registerNumber s = .ok n ∧
        g.getitem (.num n) = .ok r := by
    intro base g hg s hs
    have hnot : ∀ s ∈ aliasNames, s ∉ regNames := by decide
    have h1 := C22_lookup base g hg
    refine ⟨h1.2.1 s (hnot s hs), ?_⟩
    have hr := (C21_names 0 s).2.2
    rw [if_neg (hnot s hs), if_pos hs] at hr
    have hlt : aliasNames.idxOf s < 4 := List.idxOf_lt_length_of_mem hs
    obtain ⟨r, hrr⟩ := h1.2.2.1 (28 + (aliasNames.idxOf s : Int)) (by omega) (by omega)
    exact ⟨_, r, hr, hrr⟩
  refine ⟨?_, h2⟩
  intro h
  obtain ⟨g, hg, _⟩ := groupReach_example []
  obtain ⟨n, hn, he⟩ := h 0 g hg (py "RAC") (by decide)
  obtain ⟨h3, n', r, hn', hr⟩ := h2 0 g hg (py "RAC") (by decide)
  rw [hn] at hn'; injection hn' with hn'; subst hn'
  rw [h3, hr] at he; cases he

/-- C26, the property as stated: a loop visits `group[0], ..., group[31]` in order. -/
def C26_statement : Prop :=
  ∀ (base : Nat) (g : RegisterGroup), GroupReach base g → ∃ l, g.forLoop.2 = .ok l ∧
    l.map Except.ok = (List.range 32).map fun (n : Nat) => g.getitem (.num n)

/-- C26, what holds: a loop visits the registers from the cursor on, in order; afterwards the cursor is
at 32, where the next loop visits nothing. The cursor of a new group is 0. -/
theorem C26_iteration_partial (base : Nat) (g : RegisterGroup) (hg : GroupReach base g) :
    (∃ l, g.forLoop.2 = .ok l ∧ l.map Except.ok =
      (List.range' g.current (32 - g.current)).map fun (n : Nat) => g.getitem (.num n)) ∧
    g.forLoop.1.current = 32 ∧ g.forLoop.1.forLoop.2 = .ok [] := by
  have hi := groupReach_inv hg
  rw [groupInv_forLoop hi]
  have hi2 : GroupInv base { g with current := 32 } := ⟨le_refl _, hi.2⟩
  refine ⟨⟨_, rfl, ?_⟩, rfl, ?_⟩
  · apply List.ext_getElem
    · simp
    · intro i h1 h2
      simp only [List.length_map, List.length_range'] at h1
      simp only [List.getElem_map, List.getElem_range', one_mul]
      rw [groupInv_getitem hi]
      simp only [regIndex]
      rw [if_pos (by omega)]
      simp only [Int.toNat_natCast]
      congr 1; omega
  · simp only; rw [groupInv_forLoop hi2]; simp

/-- C26 is false: the second loop over a new group visits nothing. -/
theorem C26_refuted : ¬ C26_statement := by
  intro h
  obtain ⟨g, hg, he⟩ := groupReach_example []
  obtain ⟨g2, hg2, he2⟩ := groupReach_example [.forLoop]
  have : g2.forLoop.2 = .ok [] := by
    have := (C26_iteration_partial 0 g hg).2.2
    rw [he2]; rw [he] at this; exact this
  obtain ⟨l, h1, h2⟩ := h 0 g2 hg2
  rw [this] at h1; injection h1 with h1; subst h1
  have := congrArg List.length h2
  simp at this

/-- C27, the property as stated. -/
def C27_statement : Prop :=
  ∀ (base : Nat) (g : RegisterGroup), GroupReach base g → ∀ (k : GKey) (r : Nat),
    (regIndex k).isSome → (g.setitem k r).2 = .ok () ∧ (g.setitem k r).1.getitem k = .ok r ∧
      (g.setitem k r).1.len = 32

/-- C27, what the code does instead: a numeric key raises KeyError, a name is accepted, but in no case
does the assignment change what any subscript returns. -/
theorem C27_setitem_partial (base : Nat) (g : RegisterGroup) (hg : GroupReach base g) (r : Nat) :
    (∀ n, g.setitem (.num n) r = (g, .error .keyError)) ∧
    (∀ s, (g.setitem (.name s) r).2 = .ok () ∧
      ∀ k, (g.setitem (.name s) r).1.getitem k = g.getitem k) ∧
    g.setitem .slice r = (g, .error .valueError) := by
  have hi := groupReach_inv hg
  refine ⟨fun _ => rfl, fun s => ⟨rfl, fun k => ?_⟩, rfl⟩
  have hi2 : GroupInv base (GroupOp.run g (.setitem (.name s) r)) := groupInv_run hi _
  have h3 := groupInv_getitem hi2 k
  rw [groupInv_getitem hi]
  exact h3

/-- C27 is false: `group["X0"] = r` on a new group does not change `group["X0"]` (and makes the group
33 long), `group[8] = r` raises KeyError. -/
theorem C27_refuted : ¬ C27_statement := by
  intro h
  obtain ⟨g, hg, he⟩ := groupReach_example []
  have h1 := (h 0 g hg (.num 8) 99 (by decide)).1
  rw [(C27_setitem_partial 0 g hg 99).1 8] at h1
  cases h1

example : ∃ g, GroupReach 0 g ∧ (g.setitem (.name (py "X0")) 99).1.getitem (.name (py "X0")) = .ok 8 ∧
    (g.setitem (.name (py "X0")) 99).1.len = 33 := by
  obtain ⟨g, hg, rfl⟩ := groupReach_example []
  exact ⟨_, hg, by decide, by decide⟩

/-! ### C24, C25, C28: the register file -/

/-- C24: after any history of in-range writes to single registers and of iteration, each register
holds what a plain 8 x 32 table holds; it keeps its name and width. -/
theorem C24_last_write (w : Int) (hw : w = 16 ∨ w = 24) :
    ∃ s0, Registers.init w = .ok s0 ∧ ∀ ops : List RegOp, (∀ op ∈ ops, InRange op) →
      ∀ (g : FKey) (k : GKey),
        (∀ a b, groupIndex g = some a → regIndex k = some b →
          ∃ r, (ops.foldl RegOp.run s0).reg g k = .ok r ∧
            r.value = ops.foldl (regStep w.toNat) (fun _ _ => 0) a b ∧
            Fits w.toNat r.value ∧ r.name = regNames[b]? ∧ (r.width : Int) = w) ∧
        (groupIndex g = none ∨ regIndex k = none →
          (ops.foldl RegOp.run s0).reg g k = .error .valueError) := by
  refine ⟨_, file_init w hw, ?_⟩
  intro ops hops g k
  have h0 : Fits w.toNat 0 := ⟨le_refl _, by positivity⟩
  obtain ⟨⟨gc, c, h1⟩, h2⟩ := runs_inRange w.toNat (by omega) ops hops (fun _ _ => 0) (fun _ => 0) 0
    (by omega) (by intro _; omega) (fun _ _ => h0)
  rw [h1, reg_canon]
  constructor
  · intro a b ha hb
    rw [ha, hb]
    exact ⟨_, rfl, rfl, h2 a b, rfl, by simp only [mkReg]; omega⟩
  · intro h
    rcases h with h | h
    · rw [h]
    · rw [h]; cases groupIndex g <;> rfl

/-- A width other than 16 and 24 is refused. -/
theorem C24_bad_width (w : Int) (hw : ¬ (w = 16 ∨ w = 24)) :
    Registers.init w = .error .valueError := by
  unfold Registers.init Registers.NUM_GROUPS
  have : List.range 8 = 0 :: [1, 2, 3, 4, 5, 6, 7] := by decide
  rw [this]
  unfold Registers.initLoop
  rw [groupLoop_bad w hw]; rfl

example : let ops : List RegOp := [.write (.num 2) (.name (py "X0")) 65535,
      .slice (.num 2) (.num 8) 5 8 0, .bit (.num 2) (.num 8) 1 0, .write (.num 2) (.num 9) 70000,
      .write (.num 9) (.num 8) 1, .next (.num 2)]
    (∀ op ∈ ops, InRange op) ∧ ops.foldl (regStep 16) (fun _ _ => 0) 2 8 = 0o070377 ∧
    ops.foldl (regStep 16) (fun _ _ => 0) 2 9 = 0 := by
  decide

/-- A register file obtained from `Registers(width)` by any history. -/
def FileReach (s : Registers) : Prop :=
  ∃ (w : Int) (s0 : Registers) (ops : List RegOp), Registers.init w = .ok s0 ∧
    s = ops.foldl RegOp.run s0

theorem fileReach_canon {s : Registers} (h : FileReach s) :
    ∃ W m gc c, s = canon W m gc c ∧ c ≤ 8 ∧ (∀ g, gc g ≤ 32) := by
  obtain ⟨w, s0, ops, h0, rfl⟩ := h
  by_cases hw : w = 16 ∨ w = 24
  · rw [file_init w hw] at h0
    injection h0 with h0
    subst h0
    obtain ⟨m, gc, c, h1, h2, h3⟩ := runs_canon w.toNat (by omega) ops (fun _ _ => 0) (fun _ => 0) 0
      (by omega) (by intro _; omega)
    exact ⟨_, m, gc, c, h1, h2, h3⟩
  · rw [C24_bad_width w hw] at h0; cases h0

/-- C25, the property as stated. -/
def C25_statement : Prop :=
  ∀ s, FileReach s → ∀ (a n : Nat), a < 8 → n < 32 →
    (∃ r, (RegOp.run s (.clearGroup (.num a))).reg (.num a) (.num n) = .ok r ∧ r.value = 0) ∧
    (∃ r, (RegOp.run s .clearFile).reg (.num a) (.num n) = .ok r ∧ r.value = 0)

theorem groupIndex_nat {a : Nat} (h : a < 8) : groupIndex (.num a) = some a := by
  simp only [groupIndex]; rw [if_pos (by omega)]; rfl

theorem regIndex_nat {n : Nat} (h : n < 32) : regIndex (.num n) = some n := by
  simp only [regIndex]; rw [if_pos (by omega)]; rfl

/-- C25, what holds: `group.clear()` zeroes exactly the registers from the group's cursor on, and
`registers.clear()` does so for the groups from the file's cursor on. Everything else is unchanged.
Both leave the cursors at the end, so a later `clear` does nothing. -/
theorem C25_clear_partial (s : Registers) (hs : FileReach s) (a : Nat) (ha : a < 8) :
    ∃ grp, s.groups[a]? = some grp ∧ grp.current ≤ 32 ∧
      (∃ grp', (RegOp.run s (.clearGroup (.num a))).groups[a]? = some grp' ∧ grp'.current = 32) ∧
      ∀ (x n : Nat), x < 8 → n < 32 → ∃ r, s.reg (.num x) (.num n) = .ok r ∧
        (RegOp.run s (.clearGroup (.num a))).reg (.num x) (.num n) =
          .ok (if x = a ∧ grp.current ≤ n then r.clear else r) ∧
        (x = a → (RegOp.run s .clearFile).reg (.num x) (.num n) =
          .ok (if s.current ≤ a ∧ grp.current ≤ n then r.clear else r)) := by
  obtain ⟨W, m, gc, c, rfl, hc, hgc⟩ := fileReach_canon hs
  refine ⟨⟨W, dictOf (32 * a), gc a⟩, groupsOf_get W gc a ha, hgc a, ?_, ?_⟩
  · simp only [RegOp.run, getitem_canon, groupIndex_nat ha, clearGroupRef_canon W m gc c a ha (hgc a)]
    refine ⟨⟨W, dictOf (32 * a), 32⟩, ?_, rfl⟩
    have := groupsOf_get W (fun x => if x = a then 32 else gc x) a ha
    rw [if_pos rfl] at this
    exact this
  · intro x n hx hn
    refine ⟨mkReg W n (m x n), ?_, ?_, ?_⟩
    · rw [reg_canon, groupIndex_nat hx, regIndex_nat hn]
    · simp only [RegOp.run, getitem_canon, groupIndex_nat ha,
        clearGroupRef_canon W m gc c a ha (hgc a)]
      rw [reg_canon, groupIndex_nat hx, regIndex_nat hn, mkReg_clear]
      simp only [clearedFrom]
      by_cases h : x = a ∧ gc a ≤ n
      · rw [if_pos h, if_pos ⟨h.1, h.2, hn⟩]
      · rw [if_neg h, if_neg (fun h' => h ⟨h'.1, h'.2.1⟩)]
    · rintro rfl
      simp only [RegOp.run, clear_canon W m gc c hc hgc]
      rw [reg_canon, groupIndex_nat hx, regIndex_nat hn, mkReg_clear]
      simp only [clearedFile]
      have hcur : (canon W m gc c).current = c := rfl
      rw [hcur]
      by_cases h : c ≤ x ∧ gc x ≤ n
      · rw [if_pos h, if_pos ⟨⟨h.1, hx⟩, h.2, hn⟩]
      · rw [if_neg h, if_neg (fun h' => h ⟨h'.1.1, h'.2.1⟩)]

/-- Operations on single registers only: no iteration, no collective clear. -/
def Quiet : RegOp → Prop
  | .write .. | .bit .. | .slice .. | .clearReg .. => True
  | _ => False

theorem quiet_run (ops : List RegOp) (h : ∀ op ∈ ops, Quiet op) (s : Registers) :
    (ops.foldl RegOp.run s).groups = s.groups ∧ (ops.foldl RegOp.run s).current = s.current := by
  induction ops generalizing s with
  | nil => exact ⟨rfl, rfl⟩
  | cons op ops ih =>
    have h1 := ih (fun o ho => h o (List.mem_cons_of_mem _ ho)) (op.run s)
    have hon : ∀ (g : FKey) (k : GKey) (f : Register → Register),
        (RegOp.onReg s g k f).groups = s.groups ∧ (RegOp.onReg s g k f).current = s.current := by
      intro g k f; unfold RegOp.onReg; split <;> exact ⟨rfl, rfl⟩
    have h2 : (op.run s).groups = s.groups ∧ (op.run s).current = s.current := by
      have hq := h op List.mem_cons_self
      cases op <;> first | exact hon _ _ _ | exact hq.elim
    rw [List.foldl_cons]
    exact ⟨h1.1.trans h2.1, h1.2.trans h2.2⟩

/-- C25, what a user can rely on: the first collective `clear` zeroes every register, provided nothing
has iterated over the group or the file before. -/
theorem C25_first_clear_partial (w : Int) (s0 : Registers) (h0 : Registers.init w = .ok s0)
    (ops : List RegOp) (hops : ∀ op ∈ ops, Quiet op) (a n : Nat) (ha : a < 8) (hn : n < 32) :
    (∃ r, (RegOp.run (ops.foldl RegOp.run s0) (.clearGroup (.num a))).reg (.num a) (.num n) = .ok r ∧
      r.value = 0) ∧
    (∃ r, (RegOp.run (ops.foldl RegOp.run s0) .clearFile).reg (.num a) (.num n) = .ok r ∧
      r.value = 0) := by
  obtain ⟨grp, h1, _, _, h2⟩ := C25_clear_partial (ops.foldl RegOp.run s0) ⟨w, s0, ops, h0, rfl⟩ a ha
  have hq := quiet_run ops hops s0
  have hw : w = 16 ∨ w = 24 := by
    by_contra hw; rw [C24_bad_width w hw] at h0; cases h0
  have hs0 := h0
  rw [file_init w hw] at hs0
  injection hs0 with hs0
  have hg : grp.current = 0 := by
    rw [hq.1, ← hs0] at h1
    have h3 : (canon w.toNat (fun _ _ => 0) (fun _ => 0) 0).groups[a]? = _ :=
      groupsOf_get w.toNat (fun _ => 0) a ha
    rw [h3] at h1
    injection h1 with h1
    rw [← h1]
  have hc : (ops.foldl RegOp.run s0).current = 0 := by rw [hq.2, ← hs0]; rfl
  obtain ⟨r, _, h4, h5⟩ := h2 a n ha hn
  rw [if_pos ⟨rfl, by omega⟩] at h4
  have h5 := h5 rfl
  rw [if_pos ⟨by omega, by omega⟩] at h5
  exact ⟨⟨_, h4, rfl⟩, ⟨_, h5, rfl⟩⟩

/-- C25 is false: after `registers[0].clear()`, writing 5 to register 3 and clearing again leaves 5. -/
theorem C25_refuted : ¬ C25_statement := by
  intro h
  have h0 := file_init 16 (Or.inl rfl)
  let ops : List RegOp := [.clearGroup (.num (0 : Nat)), .write (.num (0 : Nat)) (.num (3 : Nat)) 5]
  have hs : FileReach (ops.foldl RegOp.run (canon 16 (fun _ _ => 0) (fun _ => 0) 0)) :=
    ⟨16, _, ops, h0, rfl⟩
  obtain ⟨r, h1, h2⟩ := (h _ hs 0 3 (by decide) (by decide)).1
  have e1 : (RegOp.run (canon 16 (fun _ _ => 0) (fun _ => 0) 0) (.clearGroup (.num (0 : Nat)))) =
      canon 16 (clearedFrom (fun _ _ => 0) 0 0) (fun x => if x = 0 then 32 else 0) 0 := by
    simp only [RegOp.run, getitem_canon, groupIndex_nat (show 0 < 8 by decide),
      clearGroupRef_canon 16 (fun _ _ => 0) (fun _ => 0) 0 0 (by decide) (by decide)]
  have e2 := onReg_canon 16 (clearedFrom (fun _ _ => 0) 0 0) (fun x => if x = 0 then 32 else 0) 0
    (.num (0 : Nat)) (.num (3 : Nat)) (fun r => (r.setValue 5).1) (fun _ => 5)
    (by intro a b _ _; rw [mkReg_setValue 16 b (by decide), if_pos (by decide)])
  have e3 : ops.foldl RegOp.run (canon 16 (fun _ _ => 0) (fun _ => 0) 0) =
      canon 16 (regUpdate (clearedFrom (fun _ _ => 0) 0 0) (.num (0 : Nat)) (.num (3 : Nat)) fun _ => 5)
        (fun x => if x = 0 then 32 else 0) 0 := by
    simp only [ops, List.foldl_cons, List.foldl_nil, e1]
    exact e2
  rw [e3] at h1
  simp only [RegOp.run, getitem_canon, groupIndex_nat (show 0 < 8 by decide)] at h1
  rw [clearGroupRef_canon 16 _ _ _ _ (by decide) (by decide), reg_canon,
    groupIndex_nat (show 0 < 8 by decide), regIndex_nat (show 3 < 32 by decide)] at h1
  injection h1 with h1
  rw [← h1] at h2
  revert h2
  simp only [mkReg, Register.value]
  decide

/-- C28, the property as stated (identity of the stored group; other keys rejected). -/
def C28_statement : Prop :=
  ∀ s, FileReach s → ∀ (k : FKey) (g : Nat),
    (∀ a, groupIndex k = some a → (s.setitem k g).2 = .ok () ∧ (s.setitem k g).1.getitem k = .ok g ∧
      (∀ b : Nat, b < 8 → b ≠ a → (s.setitem k g).1.getitem (.num b) = s.getitem (.num b)) ∧
      (s.setitem k g).1.heap = s.heap ∧ (s.setitem k g).1.groups = s.groups) ∧
    (groupIndex k = none → ∃ e, s.setitem k g = (s, .error e))

/-- C28, what holds: assignment to groups 0..7 works, subscripts that are not integers are rejected. An
integer outside 0..7 is accepted, with no effect on what any subscript returns. -/
theorem C28_setitem_partial (s : Registers) (k : FKey) (g : Nat) :
    (∀ a, groupIndex k = some a → (s.setitem k g).2 = .ok () ∧ (s.setitem k g).1.getitem k = .ok g ∧
      (∀ b : Nat, b < 8 → b ≠ a → (s.setitem k g).1.getitem (.num b) = s.getitem (.num b)) ∧
      (s.setitem k g).1.heap = s.heap ∧ (s.setitem k g).1.groups = s.groups) ∧
    (k = .slice ∨ k = .other → s.setitem k g = (s, .error .valueError)) ∧
    (∀ n, k = .num n → groupIndex k = none → (s.setitem k g).2 = .ok () ∧
      ∀ j, (s.setitem k g).1.getitem j = s.getitem j) := by
  have key : ∀ (i j : Int), i ≠ j → (s.setitem (.num i) g).1.getitem (.num j) = s.getitem (.num j) := by
    intro i j hij
    simp only [Registers.setitem, Registers.getitem, dgetE]
    rw [dget_dset_ne _ _ _ _ hij]
  refine ⟨?_, ?_, ?_⟩
  · intro a ha
    cases k with
    | slice => cases ha
    | other => cases ha
    | num n =>
      have h1 : 0 ≤ n ∧ n < 8 := by
        by_contra hc; simp only [groupIndex] at ha; rw [if_neg hc] at ha; cases ha
      have h2 : n = (a : Int) := by
        simp only [groupIndex] at ha; rw [if_pos h1] at ha; injection ha; omega
      refine ⟨rfl, ?_, ?_, rfl, rfl⟩
      · simp only [Registers.setitem, Registers.getitem, dgetE]
        have hN : ((Registers.NUM_GROUPS : Nat) : Int) = 8 := rfl
        rw [if_neg (by omega), dget_dset_self]
      · intro b hb hne
        exact key n b (by omega)
  · rintro (rfl | rfl) <;> rfl
  · rintro n rfl hn
    refine ⟨rfl, ?_⟩
    intro j
    cases j with
    | slice => rfl
    | other => rfl
    | num j =>
      by_cases hj : n = j
      · subst hj
        have h1 : ¬ (0 ≤ n ∧ n < 8) := by
          intro hc; simp only [groupIndex] at hn; rw [if_pos hc] at hn; cases hn
        have hN : ((Registers.NUM_GROUPS : Nat) : Int) = 8 := rfl
        simp only [Registers.getitem]
        rw [if_pos (by omega), if_pos (by omega)]
      · exact key n j hj

/-- C28 is false in its last part: `registers[8] = group` is accepted. -/
theorem C28_refuted : ¬ C28_statement := by
  intro h
  have hs : FileReach (canon 16 (fun _ _ => 0) (fun _ => 0) 0) :=
    ⟨16, _, [], file_init 16 (Or.inl rfl), rfl⟩
  obtain ⟨e, he⟩ := (h _ hs (.num 8) 0).2 (by decide)
  have := congrArg Prod.snd he
  cases this

end H800
