import Verif.Spec.Registers
import Verif.Lemmas.Word

/-! Canonical form of register files reachable without assigning objects. -/

namespace H800

open Spec BitField

/-! ### Dictionaries keyed by a range -/

theorem dget_map_range {κ ν : Type} [DecidableEq κ] (key : Nat → κ) (val : Nat → ν)
    (hinj : ∀ i j, key i = key j → i = j) (n k : Nat) :
    dget ((List.range n).map fun i => (key i, val i)) (key k) = if k < n then some (val k) else none := by
  have gen : ∀ (l : List Nat), dget (l.map fun i => (key i, val i)) (key k) =
      if k ∈ l then some (val k) else none := by
    intro l
    induction l with
    | nil => rfl
    | cons i l ih =>
      simp only [List.map_cons, dget]
      by_cases h : key i = key k
      · have := hinj _ _ h; subst this; simp
      · rw [if_neg h, ih]
        have : i ≠ k := fun e => h (by rw [e])
        simp [List.mem_cons, Ne.symm this]
  rw [gen]; simp [List.mem_range]

theorem dget_map_none {κ ν : Type} [DecidableEq κ] (l : List Nat) (key : Nat → κ) (val : Nat → ν)
    (k : κ) (h : ∀ i, key i ≠ k) : dget (l.map fun i => (key i, val i)) k = none := by
  induction l with
  | nil => rfl
  | cons i l ih => simp only [List.map_cons, dget, if_neg (h i), ih]

/-! ### Single registers -/

/-- Register number `n` of `W` bits holding `v`. -/
def mkReg (W n : Nat) (v : Int) : Register := ⟨⟨W, v, .msb1, .msbLeft⟩, regNames[n]?, W⟩

theorem fitsW (W : Nat) (v : Int) : Fits W v ↔ ¬ (v < 0 ∨ v > 2 ^ W - 1) := by
  unfold Fits; omega

theorem setitem_shape (b : BitField) (k : Key) (x : Int) :
    (b.setitem k x).1 = { b with value := (b.setitem k x).1.value } := by
  unfold setitem
  split <;> rfl

theorem full_set (W : Nat) (hW : 1 ≤ W) (u v : Int) (hu : Fits W u) (hv : Fits W v) :
    (BitField.mk W u .msb1 .msbLeft).setitem (.slice (some 1) (some (W : Int))) v =
      (BitField.mk W v .msb1 .msbLeft, .ok ()) := by
  rw [msb1_set W u v 1 W 0 W hW (by omega) (by omega) (by omega) hu hv]
  have : putField u 0 W v = v := by
    unfold putField field
    have : u % 2 ^ W = u := Int.emod_eq_of_lt hu.1 hu.2
    simp [this]
  rw [this]

/-- The full-width slice write ignores the old value, even one that is out of range. -/
theorem full_set' (W : Nat) (hW : 1 ≤ W) (u v : Int) (hv : Fits W v) :
    (BitField.mk W u .msb1 .msbLeft).setitem (.slice (some 1) (some (W : Int))) v =
      (BitField.mk W v .msb1 .msbLeft, .ok ()) := by
  have hspan := msb1_span W u 1 W 0 W hW (by omega) (by omega) (by omega)
  have hnew := newSlice_span hspan v
  rw [if_pos (by have := hv.2; omega)] at hnew
  have hm : (BitField.mk W u .msb1 .msbLeft).maskPos 0 W = 0 := rfl
  rw [hm] at hnew
  simp only [maxval, pow_zero, mul_one, sub_self] at hnew
  have h0 : Int.land u 0 = 0 := by
    apply testBit_ext; intro k; rw [Int.testBit_land, testBit_zero, Bool.and_false]
  have h1 : Int.lor 0 v = v := by
    apply testBit_ext; intro k; rw [Int.testBit_lor, testBit_zero, Bool.false_or]
  rw [h0, h1] at hnew
  exact setitem_slice_ok hnew

theorem register_init (v : Int) (name : Option Str) (w : Int) :
    Register.init v name w =
      if (w = 16 ∨ w = 24) ∧ Fits w.toNat v ∧
          (name = none ∨ name = some [] ∨ ∃ s ∈ REGISTER_NAMES, name = some s) then
        .ok ⟨⟨w.toNat, v, .msb1, .msbLeft⟩, name, w.toNat⟩
      else .error .valueError := by
  unfold Register.init
  have hname : (name = none ∨ name = some [] ∨ ∃ s ∈ REGISTER_NAMES, name = some s) ↔
      ¬ (name.getD [] ≠ [] ∧ name.getD [] ∉ REGISTER_NAMES) := by
    cases name with
    | none => simp
    | some s =>
      simp only [reduceCtorEq, Option.some.injEq, false_or, Option.getD_some]
      by_cases h1 : s = []
      · simp [h1]
      · by_cases h2 : s ∈ REGISTER_NAMES <;> simp [h1, h2]
  simp only [hname, fitsW]
  by_cases hw : w < 0
  · rw [if_pos hw, if_neg]
    rintro ⟨h, _⟩; omega
  rw [if_neg hw]
  by_cases hv : v < 0 ∨ v > 2 ^ w.toNat - 1
  · rw [if_pos hv, if_neg]
    rintro ⟨_, h, _⟩; exact h hv
  rw [if_neg hv]
  by_cases hn : name.getD [] ≠ [] ∧ name.getD [] ∉ REGISTER_NAMES
  · rw [if_pos hn, if_neg]
    rintro ⟨_, _, h⟩; exact h hn
  rw [if_neg hn]
  by_cases hww : w = 16 ∨ w = 24
  · rw [if_neg (by omega), if_pos ⟨hww, hv, hn⟩]
    have hi : BitField.init 0 w.toNat 3 0 = .ok ⟨w.toNat, 0, .msb1, .msbLeft⟩ := by
      rcases hww with rfl | rfl <;> decide
    have h1 : 1 ≤ w.toNat := by omega
    have hs := full_set' w.toNat h1 0 v ((fitsW _ _).2 hv)
    have hwn : ((w.toNat : Nat) : Int) = w := Int.toNat_of_nonneg (by omega)
    rw [hwn] at hs
    rw [hi]
    simp only [py_bind_ok]
    rw [assign_ok hs]
    rfl
  · rw [if_pos (by omega), if_neg (fun h => hww h.1)]

theorem mkReg_setValue (W n : Nat) (hW : 1 ≤ W) (u v : Int) :
    (mkReg W n u).setValue v =
      if Fits W v then (mkReg W n v, .ok ()) else (mkReg W n u, .error .valueError) := by
  unfold Register.setValue
  by_cases h : Fits W v
  · rw [if_pos h, if_neg (by simpa [mkReg] using (fitsW W v).1 h)]
    have := full_set' W hW u v h
    simp only [mkReg] at *
    rw [this]
  · rw [if_neg h, if_pos (by rw [fitsW] at h; simpa [mkReg] using not_not.1 h)]

theorem mkReg_clear (W n : Nat) (u : Int) : (mkReg W n u).clear = mkReg W n 0 := rfl

theorem mkReg_setitem_shape (W n : Nat) (u : Int) (k : Key) (x : Int) :
    ((mkReg W n u).setitem k x).1 = mkReg W n ((mkReg W n u).setitem k x).1.value := by
  unfold Register.setitem Register.value mkReg
  simp only
  rw [setitem_shape]

theorem mkReg_bit (W n : Nat) (u i x : Int) (hu : Fits W u) (hx : Fits 1 x) :
    ((mkReg W n u).setitem (.idx i) x).1 =
      mkReg W n (if 1 ≤ i ∧ i ≤ W then putField u (W - i).toNat 1 x else u) := by
  unfold Register.setitem mkReg
  simp only
  by_cases h : 1 ≤ i ∧ i ≤ W
  · rw [if_pos h, msb1_setbit W u x i (W - i).toNat (by omega) h.1 hu hx]
  · rw [if_neg h]
    have hn := newIndex_eq ⟨W, u, .msb1, .msbLeft⟩ i x
    rw [if_neg (by simp only [wt, weightExp, Numbering.code]; omega)] at hn
    rw [setitem_idx_error hn]

theorem newSlice_bad {b : BitField} {s e : Int} (h : ¬ b.RangeOk s e) (x : Int) :
    b.newSlice (some s) (some e) x = .error .valueError := by
  unfold newSlice
  rw [getRange_some, checkRange_some, if_neg h]
  simp only [if_neg h]
  rfl

theorem mkReg_slice (W n : Nat) (u s e x : Int) (hu : Fits W u) (hx : Fits (e - s + 1).toNat x) :
    ((mkReg W n u).setitem (.slice (some s) (some e)) x).1 =
      mkReg W n (if 1 ≤ s ∧ s ≤ e ∧ e ≤ W then
        putField u (W - e).toNat (e - s + 1).toNat x else u) := by
  unfold Register.setitem mkReg
  simp only
  by_cases h : 1 ≤ s ∧ s ≤ e ∧ e ≤ W
  · rw [if_pos h, msb1_set W u x s e (W - e).toNat (e - s + 1).toNat (by omega) (by omega)
      (by omega) (by omega) hu hx]
  · rw [if_neg h]
    have hr : ¬ (BitField.mk W u .msb1 .msbLeft).RangeOk s e := by
      unfold RangeOk Ordered
      simp only [wt, weightExp, Numbering.code]
      omega
    rw [setitem_slice_error (newSlice_bad hr x)]

/-! ### The store -/

/-- The 256 registers of a file. -/
def heapOf (W : Nat) (m : RegMap) : List Register :=
  (List.range 256).map fun i => mkReg W (i % 32) (m (i / 32) (i % 32))

/-- The dict of group `g`. -/
def dictOf (base : Nat) : Dict GKey Nat := (List.range 32).map fun (n : Nat) => (GKey.num n, base + n)

/-- The 8 groups. -/
def groupsOf (W : Nat) (gc : Nat → Nat) : List RegisterGroup :=
  (List.range 8).map fun g => ⟨W, dictOf (32 * g), gc g⟩

/-- The canonical register file. -/
def canon (W : Nat) (m : RegMap) (gc : Nat → Nat) (c : Nat) : Registers :=
  { heap := heapOf W m, groups := groupsOf W gc,
    slots := (List.range 8).map fun (k : Nat) => ((k : Int), k), current := c }

theorem heapOf_get (W : Nat) (m : RegMap) (g n : Nat) (hg : g < 8) (hn : n < 32) :
    (heapOf W m)[32 * g + n]? = some (mkReg W n (m g n)) := by
  unfold heapOf
  rw [List.getElem?_map, List.getElem?_range (by omega)]
  have h1 : (32 * g + n) / 32 = g := by omega
  have h2 : (32 * g + n) % 32 = n := by omega
  simp [h1, h2]

theorem upd_heap (W : Nat) (m : RegMap) (g n : Nat) (hg : g < 8) (hn : n < 32)
    (f : Register → Register) (h : Int → Int) (hf : ∀ v, v = m g n → f (mkReg W n v) = mkReg W n (h v)) :
    RegisterGroup.upd (heapOf W m) (32 * g + n) f =
      heapOf W (fun x y => if x = g ∧ y = n then h (m x y) else m x y) := by
  unfold RegisterGroup.upd
  rw [heapOf_get W m g n hg hn]
  simp only
  rw [hf _ rfl]
  apply List.ext_getElem
  · simp [heapOf]
  · intro i h1 h2
    simp only [heapOf, List.length_set, List.length_map, List.length_range] at h1
    rw [List.getElem_set]
    simp only [heapOf, List.getElem_map, List.getElem_range]
    by_cases hi : 32 * g + n = i
    · subst hi
      have h1 : (32 * g + n) / 32 = g := by omega
      have h2 : (32 * g + n) % 32 = n := by omega
      rw [if_pos rfl, h1, h2]; simp
    · rw [if_neg hi, if_neg (by omega)]

theorem groupsOf_get (W : Nat) (gc : Nat → Nat) (g : Nat) (hg : g < 8) :
    (groupsOf W gc)[g]? = some ⟨W, dictOf (32 * g), gc g⟩ := by
  unfold groupsOf
  rw [List.getElem?_map, List.getElem?_range hg]; rfl

theorem set_groups (W : Nat) (gc : Nat → Nat) (g c : Nat) :
    (groupsOf W gc).set g ⟨W, dictOf (32 * g), c⟩ =
      groupsOf W (fun x => if x = g then c else gc x) := by
  apply List.ext_getElem
  · simp [groupsOf]
  · intro i h1 h2
    rw [List.getElem_set]
    simp only [groupsOf, List.getElem_map, List.getElem_range]
    by_cases hi : g = i
    · subst hi; rw [if_pos rfl]; simp
    · rw [if_neg hi, if_neg (by omega)]

theorem getitem_canon (W : Nat) (m : RegMap) (gc : Nat → Nat) (c : Nat) (g : FKey) :
    (canon W m gc c).getitem g = match groupIndex g with
      | some a => .ok a
      | none => .error .valueError := by
  cases g with
  | slice => rfl
  | other => rfl
  | num k =>
    have hN : ((Registers.NUM_GROUPS : Nat) : Int) = 8 := rfl
    simp only [Registers.getitem, groupIndex]
    by_cases h : 0 ≤ k ∧ k < 8
    · rw [if_neg (by omega), if_pos h]
      obtain ⟨n, rfl⟩ := Int.eq_ofNat_of_zero_le h.1
      unfold dgetE canon
      simp only
      rw [dget_map_range (fun (i : Nat) => (i : Int)) (fun i => i) (by intro i j h; simpa using h),
        if_pos (by omega)]
      rfl
    · rw [if_pos (by omega), if_neg h]

theorem dict_get (base : Nat) (n : Int) :
    dget (dictOf base) (.num n) = if 0 ≤ n ∧ n < 32 then some (base + n.toNat) else none := by
  unfold dictOf
  by_cases h0 : 0 ≤ n
  · obtain ⟨k, rfl⟩ := Int.eq_ofNat_of_zero_le h0
    rw [dget_map_range (fun (i : Nat) => GKey.num i) (fun i => base + i)
      (by intro i j h; simpa using h)]
    by_cases h : k < 32
    · rw [if_pos h, if_pos (by omega)]; rfl
    · rw [if_neg h, if_neg (by omega)]
  · rw [if_neg (by omega), dget_map_none]
    intro i h
    injection h with h
    omega

theorem dget_REGISTERS (s : Str) :
    dget REGISTERS s = Option.map (fun (n : Nat) => (n : Int)) (regIndex (.name s)) := by
  have hR : REGISTERS = (List.range 32).map fun (i : Nat) => (regNames[i]!, (i : Int)) := by decide
  have gen : ∀ (names : List Str) (off : Nat),
      dget ((List.range names.length).map fun (i : Nat) => (names[i]!, ((off + i : Nat) : Int))) s =
        if s ∈ names then some ((off + names.idxOf s : Nat) : Int) else none := by
    intro names
    induction names with
    | nil => intro off; rfl
    | cons a names ih =>
      intro off
      rw [List.length_cons, List.range_succ_eq_map, List.map_cons, dget]
      by_cases h : a = s
      · subst h; simp
      · have hh : (a :: names)[0]! = a := rfl
        rw [hh, if_neg h, List.map_map]
        have := ih (off + 1)
        have hfun : ((fun (i : Nat) => ((a :: names)[i]!, ((off + i : Nat) : Int))) ∘ Nat.succ) =
            fun (i : Nat) => (names[i]!, ((off + 1 + i : Nat) : Int)) := by
          funext i
          simp only [Function.comp, Nat.succ_eq_add_one]
          refine Prod.ext ?_ ?_
          · simp
          · simp only; push_cast; ring
        rw [hfun, this]
        have hne : ¬ s = a := fun e => h e.symm
        simp only [List.mem_cons, hne, false_or]
        by_cases hm : s ∈ names
        · rw [if_pos hm, if_pos hm, List.idxOf_cons_ne _ h]
          congr 1; push_cast; ring
        · rw [if_neg hm, if_neg hm]
  have := gen regNames 0
  simp only [Nat.zero_add] at this
  rw [hR]
  have hlen : regNames.length = 32 := by decide
  rw [hlen] at this
  rw [this]
  simp only [regIndex]
  split <;> rfl

theorem regIndex_lt {k : GKey} {n : Nat} (h : regIndex k = some n) : n < 32 := by
  cases k with
  | slice => cases h
  | num i =>
    simp only [regIndex] at h
    by_cases hh : 0 ≤ i ∧ i < 32
    · rw [if_pos hh] at h; injection h; omega
    · rw [if_neg hh] at h; cases h
  | name s =>
    simp only [regIndex] at h
    by_cases hh : s ∈ regNames
    · rw [if_pos hh] at h; injection h with h; rw [← h]
      have : regNames.length = 32 := by decide
      rw [← this]; exact List.idxOf_lt_length_of_mem hh
    · rw [if_neg hh] at h; cases h

theorem groupIndex_lt {k : FKey} {n : Nat} (h : groupIndex k = some n) : n < 8 := by
  cases k with
  | slice => cases h
  | other => cases h
  | num i =>
    simp only [groupIndex] at h
    by_cases hh : 0 ≤ i ∧ i < 8
    · rw [if_pos hh] at h; injection h; omega
    · rw [if_neg hh] at h; cases h

theorem group_getitem (W base c : Nat) (k : GKey) :
    (RegisterGroup.mk W (dictOf base) c).getitem k = match regIndex k with
      | some n => .ok (base + n)
      | none => .error .valueError := by
  cases k with
  | slice => rfl
  | num n =>
    have hlen : ((REGISTERS.length : Nat) : Int) = 32 := by decide
    simp only [RegisterGroup.getitem, hlen, regIndex, dgetE, dict_get]
    by_cases h : 0 ≤ n ∧ n < 32
    · rw [if_neg (by omega), if_pos h, if_pos h]
    · rw [if_pos (by omega), if_neg h]
  | name s =>
    simp only [RegisterGroup.getitem, dget_REGISTERS]
    cases hr : regIndex (.name s) with
    | none => rfl
    | some n =>
      have := regIndex_lt hr
      simp only [Option.map_some, dgetE]
      rw [dict_get, if_pos (by omega)]; simp

theorem regRef_canon (W : Nat) (m : RegMap) (gc : Nat → Nat) (c : Nat) (g : FKey) (k : GKey) :
    (canon W m gc c).regRef g k = match groupIndex g, regIndex k with
      | some a, some b => .ok (32 * a + b)
      | _, _ => .error .valueError := by
  unfold Registers.regRef
  rw [getitem_canon]
  cases hg : groupIndex g with
  | none => rfl
  | some a =>
    simp only [py_bind_ok]
    have : (canon W m gc c).groups[a]? = some ⟨W, dictOf (32 * a), gc a⟩ :=
      groupsOf_get W gc a (groupIndex_lt hg)
    rw [this]
    simp only [group_getitem]
    cases regIndex k <;> rfl

theorem reg_canon (W : Nat) (m : RegMap) (gc : Nat → Nat) (c : Nat) (g : FKey) (k : GKey) :
    (canon W m gc c).reg g k = match groupIndex g, regIndex k with
      | some a, some b => .ok (mkReg W b (m a b))
      | _, _ => .error .valueError := by
  unfold Registers.reg
  rw [regRef_canon]
  cases hg : groupIndex g with
  | none => rfl
  | some a =>
    cases hk : regIndex k with
    | none => rfl
    | some b =>
      simp only [py_bind_ok]
      have : (canon W m gc c).heap[32 * a + b]? = some (mkReg W b (m a b)) :=
        heapOf_get W m a b (groupIndex_lt hg) (regIndex_lt hk)
      rw [this]; rfl

theorem onReg_canon (W : Nat) (m : RegMap) (gc : Nat → Nat) (c : Nat) (g : FKey) (k : GKey)
    (f : Register → Register) (h : Int → Int)
    (hf : ∀ a b, groupIndex g = some a → regIndex k = some b →
      f (mkReg W b (m a b)) = mkReg W b (h (m a b))) :
    RegOp.onReg (canon W m gc c) g k f = canon W (regUpdate m g k h) gc c := by
  unfold RegOp.onReg regUpdate
  rw [regRef_canon]
  cases hg : groupIndex g with
  | none => rfl
  | some a =>
    cases hk : regIndex k with
    | none => rfl
    | some b =>
      simp only
      have hh : (canon W m gc c).heap = heapOf W m := rfl
      rw [hh, upd_heap W m a b (groupIndex_lt hg) (regIndex_lt hk) f h
        (by intro v hv; rw [hv]; exact hf a b hg hk)]
      rfl

/-! ### Iteration -/

theorem next_group (W base c : Nat) (hc : c ≤ 32) :
    (RegisterGroup.mk W (dictOf base) c).next =
      if c = 32 then (⟨W, dictOf base, c⟩, .ok none)
      else (⟨W, dictOf base, c + 1⟩, .ok (some (base + c))) := by
  unfold RegisterGroup.next
  have hlen : REGISTERS.length = 32 := by decide
  rw [hlen]
  simp only
  by_cases h : c = 32
  · rw [if_pos (by omega), if_pos h]
  · rw [if_neg (by omega), if_neg h]
    unfold dgetE
    rw [dict_get, if_pos (by omega)]; simp

theorem loop_group (W base fuel c : Nat) (hf : 32 < fuel + c) (hc : c ≤ 32) :
    RegisterGroup.loop fuel ⟨W, dictOf base, c⟩ =
      (⟨W, dictOf base, 32⟩, .ok (List.range' (base + c) (32 - c))) := by
  induction fuel generalizing c with
  | zero => omega
  | succ fuel ih =>
    unfold RegisterGroup.loop
    rw [next_group W base c hc]
    by_cases h : c = 32
    · subst h; simp
    · rw [if_neg h]
      simp only
      rw [ih (c + 1) (by omega) (by omega)]
      simp only
      have : 32 - c = (32 - (c + 1)) + 1 := by omega
      rw [this, List.range'_succ]
      rfl

theorem forLoop_group (W base c : Nat) (hc : c ≤ 32) :
    (RegisterGroup.mk W (dictOf base) c).forLoop =
      (⟨W, dictOf base, 32⟩, .ok (List.range' (base + c) (32 - c))) := by
  unfold RegisterGroup.forLoop
  have hlen : REGISTERS.length = 32 := by decide
  rw [hlen]
  exact loop_group W base _ c (by omega) hc

theorem fold_clear (W : Nat) (m : RegMap) (g : Nat) (hg : g < 8) (k c : Nat) (hc : c + k = 32) :
    (List.range' (32 * g + c) k).foldl (fun h r => RegisterGroup.upd h r Register.clear) (heapOf W m) =
      heapOf W (fun x y => if x = g ∧ c ≤ y ∧ y < 32 then 0 else m x y) := by
  induction k generalizing m c with
  | zero =>
    simp only [List.range'_zero, List.foldl_nil]
    congr 1; funext x y; rw [if_neg (by omega)]
  | succ k ih =>
    rw [List.range'_succ, List.foldl_cons,
      upd_heap W m g c hg (by omega) Register.clear (fun _ => 0) (by intro v _; exact mkReg_clear W c v)]
    have := ih (fun x y => if x = g ∧ y = c then 0 else m x y) (c + 1) (by omega)
    rw [Nat.add_assoc, this]
    congr 1; funext x y
    by_cases h1 : x = g ∧ c + 1 ≤ y ∧ y < 32
    · rw [if_pos h1, if_pos (by omega)]
    · rw [if_neg h1]
      by_cases h2 : x = g ∧ y = c
      · rw [if_pos h2, if_pos (by omega)]
      · rw [if_neg h2, if_neg (by omega)]

/-- The contents after `clear` of group `g` whose cursor is at `c`. -/
def clearedFrom (m : RegMap) (g c : Nat) : RegMap :=
  fun x y => if x = g ∧ c ≤ y ∧ y < 32 then 0 else m x y

theorem clearGroupRef_canon (W : Nat) (m : RegMap) (gc : Nat → Nat) (c g : Nat) (hg : g < 8)
    (hc : gc g ≤ 32) :
    (canon W m gc c).clearGroupRef g =
      (canon W (clearedFrom m g (gc g)) (fun x => if x = g then 32 else gc x) c, .ok ()) := by
  unfold Registers.clearGroupRef
  have : (canon W m gc c).groups[g]? = some ⟨W, dictOf (32 * g), gc g⟩ := groupsOf_get W gc g hg
  rw [this]
  simp only
  unfold RegisterGroup.clear
  rw [forLoop_group _ _ _ hc]
  simp only
  have hh : (canon W m gc c).heap = heapOf W m := rfl
  rw [hh, fold_clear W m g hg (32 - gc g) (gc g) (by omega)]
  have hgr : (canon W m gc c).groups = groupsOf W gc := rfl
  rw [hgr, set_groups]
  rfl

theorem next_canon (W : Nat) (m : RegMap) (gc : Nat → Nat) (c : Nat) (hc : c ≤ 8) :
    (canon W m gc c).next = if c = 8 then (canon W m gc c, .ok none)
      else (canon W m gc (c + 1), .ok (some c)) := by
  unfold Registers.next Registers.NUM_GROUPS
  have h1 : (canon W m gc c).current = c := rfl
  rw [h1]
  by_cases h : c = 8
  · rw [if_pos (by omega), if_pos h]
  · rw [if_neg (by omega), if_neg h]
    have h2 : dgetE (canon W m gc c).slots (c : Int) = .ok c := by
      unfold dgetE canon
      simp only
      rw [dget_map_range (fun (i : Nat) => (i : Int)) (fun i => i) (by intro i j h; simpa using h),
        if_pos (by omega)]
    simp only
    rw [h2]
    rfl

/-- The contents after `clear` of the file whose cursor is at `c`. -/
def clearedFile (m : RegMap) (gc : Nat → Nat) (c : Nat) : RegMap :=
  fun x y => if (c ≤ x ∧ x < 8) ∧ gc x ≤ y ∧ y < 32 then 0 else m x y

theorem clearLoop_canon (W fuel : Nat) (m : RegMap) (gc : Nat → Nat) (c : Nat) (hc : c ≤ 8)
    (hgc : ∀ g, gc g ≤ 32) (hf : 8 < fuel + c) :
    Registers.clearLoop fuel (canon W m gc c) =
      (canon W (clearedFile m gc c) (fun x => if c ≤ x ∧ x < 8 then 32 else gc x) 8, .ok ()) := by
  induction fuel generalizing m gc c with
  | zero => omega
  | succ fuel ih =>
    unfold Registers.clearLoop
    rw [next_canon W m gc c hc]
    by_cases h : c = 8
    · subst h
      simp only [if_true]
      congr 2
      · funext x y; unfold clearedFile; rw [if_neg (by omega)]
      · funext x; rw [if_neg (by omega)]
    · rw [if_neg h]
      simp only
      rw [clearGroupRef_canon W m gc (c + 1) c (by omega) (hgc c)]
      simp only
      rw [ih _ _ (c + 1) (by omega) (by intro g; split; exact le_refl _; exact hgc g) (by omega)]
      congr 2
      · funext x y; unfold clearedFile clearedFrom
        by_cases h1 : x = c
        · subst h1
          rw [if_neg (by omega)]
          by_cases h2 : gc x ≤ y ∧ y < 32
          · rw [if_pos ⟨rfl, h2⟩, if_pos ⟨by omega, h2⟩]
          · rw [if_neg (fun h => h2 h.2), if_neg (fun h => h2 h.2)]
        · simp only [h1, false_and, if_false]
          by_cases h2 : (c ≤ x ∧ x < 8) ∧ gc x ≤ y ∧ y < 32
          · rw [if_pos h2, if_pos (by omega)]
          · rw [if_neg h2, if_neg (by omega)]
      · funext x
        by_cases h1 : c ≤ x ∧ x < 8
        · rw [if_pos h1]; split; rfl; rw [if_pos (by omega)]
        · rw [if_neg h1, if_neg (by omega), if_neg (by omega)]

theorem clear_canon (W : Nat) (m : RegMap) (gc : Nat → Nat) (c : Nat) (hc : c ≤ 8)
    (hgc : ∀ g, gc g ≤ 32) :
    (canon W m gc c).clear =
      (canon W (clearedFile m gc c) (fun x => if c ≤ x ∧ x < 8 then 32 else gc x) 8, .ok ()) :=
  clearLoop_canon W _ m gc c hc hgc (by unfold Registers.NUM_GROUPS; omega)

theorem next_op (W : Nat) (m : RegMap) (gc : Nat → Nat) (c a : Nat) (ha : a < 8) (hgc : gc a ≤ 32) :
    ({ canon W m gc c with groups := RegisterGroup.upd (canon W m gc c).groups a fun x => x.next.1 }
      : Registers) = canon W m (fun x => if x = a then min 32 (gc a + 1) else gc x) c := by
  have hgr : (canon W m gc c).groups = groupsOf W gc := rfl
  rw [hgr]
  unfold RegisterGroup.upd
  rw [groupsOf_get W gc a ha]
  simp only
  rw [next_group _ _ _ hgc]
  have : (if gc a = 32 then ((⟨W, dictOf (32 * a), gc a⟩ : RegisterGroup), (.ok none : Py (Option Nat)))
      else (⟨W, dictOf (32 * a), gc a + 1⟩, .ok (some (32 * a + gc a)))).1 =
      ⟨W, dictOf (32 * a), min 32 (gc a + 1)⟩ := by
    by_cases h : gc a = 32
    · rw [if_pos h]; simp [h]
    · rw [if_neg h]; simp only; congr 1; omega
  rw [this, set_groups]; rfl

/-! ### The constructor -/

theorem group_initLoop (w : Int) (hw : w = 16 ∨ w = 24) (l : Dict Str Int)
    (hl : ∀ p ∈ l, p.1 ∈ REGISTER_NAMES) (heap : List Register) (d : Dict GKey Nat) :
    RegisterGroup.initLoop w l heap d =
      .ok (heap ++ l.map (fun p => ⟨⟨w.toNat, 0, .msb1, .msbLeft⟩, some p.1, w.toNat⟩),
        (l.zipIdx heap.length).foldl (fun d p => dset d (.num p.1.2) p.2) d) := by
  induction l generalizing heap d with
  | nil => simp [RegisterGroup.initLoop]
  | cons p l ih =>
    obtain ⟨nm, n⟩ := p
    unfold RegisterGroup.initLoop
    rw [register_init, if_pos ⟨hw, by rcases hw with rfl | rfl <;> decide,
      Or.inr (Or.inr ⟨nm, hl _ List.mem_cons_self, rfl⟩)⟩]
    simp only [py_bind_ok]
    rw [ih (fun p hp => hl p (List.mem_cons_of_mem _ hp))]
    simp [List.append_assoc, List.zipIdx_cons]

theorem group_init (w : Int) (hw : w = 16 ∨ w = 24) (heap : List Register) :
    RegisterGroup.init heap w =
      .ok (heap ++ (List.range 32).map (fun n => mkReg w.toNat n 0),
        ⟨w.toNat, dictOf heap.length, 0⟩) := by
  unfold RegisterGroup.init
  rw [group_initLoop w hw REGISTERS (by decide)]
  simp only [py_bind_ok, py_pure]
  have h1 : REGISTERS.map (fun p => some p.1) = (List.range 32).map (fun n => regNames[n]?) := by
    decide
  have h2 : REGISTERS.map (fun p => (⟨⟨w.toNat, 0, .msb1, .msbLeft⟩, some p.1, w.toNat⟩ : Register)) =
      (List.range 32).map (fun n => mkReg w.toNat n 0) := by
    have := congrArg (List.map fun o => (⟨⟨w.toNat, 0, .msb1, .msbLeft⟩, o, w.toNat⟩ : Register)) h1
    simpa only [List.map_map, Function.comp_def, mkReg] using this
  rw [h2]
  have h3 : (REGISTERS.zipIdx heap.length).foldl (fun d p => dset d (.num p.1.2) p.2) [] =
      dictOf heap.length := by
    generalize heap.length = b
    simp [REGISTERS, dset, dictOf, List.range_succ]
  rw [h3]

theorem file_init (w : Int) (hw : w = 16 ∨ w = 24) :
    Registers.init w = .ok (canon w.toNat (fun _ _ => 0) (fun _ => 0) 0) := by
  have hstep : ∀ (k : Nat) (ks : List Nat) (s : Registers), Registers.initLoop w (k :: ks) s =
      Registers.initLoop w ks { s with
        heap := s.heap ++ (List.range 32).map (fun n => mkReg w.toNat n 0),
        groups := s.groups ++ [⟨w.toNat, dictOf s.heap.length, 0⟩],
        slots := dset s.slots k s.groups.length } := by
    intro k ks s
    conv_lhs => unfold Registers.initLoop
    rw [group_init w hw]
    rfl
  unfold Registers.init Registers.NUM_GROUPS
  have hr : List.range 8 = [0, 1, 2, 3, 4, 5, 6, 7] := by decide
  have hheap : ∀ W : Nat, heapOf W (fun _ _ => 0) =
      (List.range 8).flatMap fun _ => (List.range 32).map (fun n => mkReg W n 0) := by
    intro W
    have : (List.range 256).map (fun i => i % 32) = (List.range 8).flatMap fun _ => List.range 32 := by
      decide +kernel
    have := congrArg (List.map fun n => mkReg W n 0) this
    simpa only [List.map_map, List.map_flatMap, Function.comp_def, heapOf] using this
  rw [hr]
  rw [hstep, hstep, hstep, hstep, hstep, hstep, hstep, hstep]
  simp only [Registers.initLoop]
  unfold canon groupsOf
  rw [hheap, hr]
  simp only [List.nil_append, List.length_nil, List.length_append, List.length_map,
    List.length_range, List.length_cons, List.flatMap_cons, List.flatMap_nil, List.append_nil,
    List.append_assoc, List.map_cons, List.map_nil, List.cons_append]
  rfl

/-! ### Histories -/

/-- What one operation does to a canonical file; the contents are described only for operations
that satisfy `InRange`. -/
theorem run_canon (W : Nat) (hW : 1 ≤ W) (m : RegMap) (gc : Nat → Nat) (c : Nat) (hc : c ≤ 8)
    (hgc : ∀ g, gc g ≤ 32) (op : RegOp) :
    ∃ m' gc' c', RegOp.run (canon W m gc c) op = canon W m' gc' c' ∧ c' ≤ 8 ∧ (∀ g, gc' g ≤ 32) ∧
      (InRange op → (∀ g n, Fits W (m g n)) → m' = regStep W m op) := by
  cases op with
  | write g k v =>
    refine ⟨_, gc, c, onReg_canon W m gc c g k _ (fun u => if Fits W v then v else u) ?_, hc, hgc,
      fun _ _ => rfl⟩
    intro a b _ _
    rw [mkReg_setValue W b hW]; split <;> rfl
  | bit g k i x =>
    by_cases h : Fits 1 x ∧ ∀ g n, Fits W (m g n)
    · refine ⟨_, gc, c, onReg_canon W m gc c g k _ (fun u =>
        if 1 ≤ i ∧ i ≤ W then putField u (W - i).toNat 1 x else u) ?_, hc, hgc, fun _ _ => rfl⟩
      intro a b _ _
      exact mkReg_bit W b (m a b) i x (h.2 a b) h.1
    · cases hk : regIndex k with
      | none =>
        refine ⟨m, gc, c, ?_, hc, hgc, fun h1 h2 => absurd ⟨h1, h2⟩ h⟩
        have := onReg_canon W m gc c g k (fun r => (r.setitem (.idx i) x).1) id
          (by intro a b _ h; rw [hk] at h; cases h)
        simp only [RegOp.run, this]
        congr 1
        unfold regUpdate; rw [hk]; split <;> simp_all
      | some b =>
        refine ⟨_, gc, c, onReg_canon W m gc c g k _
          (fun u => ((mkReg W b u).setitem (.idx i) x).1.value) ?_, hc, hgc,
          fun h1 h2 => absurd ⟨h1, h2⟩ h⟩
        intro a b' _ hb'
        rw [hk] at hb'; injection hb' with hb'; subst hb'
        exact mkReg_setitem_shape W b (m a b) _ x
  | slice g k s e x =>
    by_cases h : Fits (e - s + 1).toNat x ∧ ∀ g n, Fits W (m g n)
    · refine ⟨_, gc, c, onReg_canon W m gc c g k _ (fun u => if 1 ≤ s ∧ s ≤ e ∧ e ≤ W then
        putField u (W - e).toNat (e - s + 1).toNat x else u) ?_, hc, hgc, fun _ _ => rfl⟩
      intro a b _ _
      exact mkReg_slice W b (m a b) s e x (h.2 a b) h.1
    · cases hk : regIndex k with
      | none =>
        refine ⟨m, gc, c, ?_, hc, hgc, fun h1 h2 => absurd ⟨h1, h2⟩ h⟩
        have := onReg_canon W m gc c g k (fun r => (r.setitem (.slice (some s) (some e)) x).1) id
          (by intro a b _ h; rw [hk] at h; cases h)
        simp only [RegOp.run, this]
        congr 1
        unfold regUpdate; rw [hk]; split <;> simp_all
      | some b =>
        refine ⟨_, gc, c, onReg_canon W m gc c g k _
          (fun u => ((mkReg W b u).setitem (.slice (some s) (some e)) x).1.value) ?_, hc, hgc,
          fun h1 h2 => absurd ⟨h1, h2⟩ h⟩
        intro a b' _ hb'
        rw [hk] at hb'; injection hb' with hb'; subst hb'
        exact mkReg_setitem_shape W b (m a b) _ x
  | clearReg g k =>
    exact ⟨_, gc, c, onReg_canon W m gc c g k _ (fun _ => 0) (fun a b _ _ => mkReg_clear W b _), hc,
      hgc, fun _ _ => rfl⟩
  | next g =>
    simp only [RegOp.run, getitem_canon]
    cases hg : groupIndex g with
    | none => exact ⟨m, gc, c, rfl, hc, hgc, fun _ _ => rfl⟩
    | some a =>
      refine ⟨m, _, c, next_op W m gc c a (groupIndex_lt hg) (hgc a), hc, ?_, fun _ _ => rfl⟩
      intro x; split; omega; exact hgc x
  | clearGroup g =>
    simp only [RegOp.run, getitem_canon]
    cases hg : groupIndex g with
    | none => exact ⟨m, gc, c, rfl, hc, hgc, fun h => h.elim⟩
    | some a =>
      simp only
      rw [clearGroupRef_canon W m gc c a (groupIndex_lt hg) (hgc a)]
      refine ⟨_, _, _, rfl, hc, ?_, fun h => h.elim⟩
      intro x; split; omega; exact hgc x
  | nextFile =>
    simp only [RegOp.run, next_canon W m gc c hc]
    by_cases h : c = 8
    · rw [if_pos h]; exact ⟨m, gc, c, rfl, hc, hgc, fun _ _ => rfl⟩
    · rw [if_neg h]; exact ⟨m, gc, c + 1, rfl, by omega, hgc, fun _ _ => rfl⟩
  | clearFile =>
    simp only [RegOp.run, clear_canon W m gc c hc hgc]
    refine ⟨_, _, _, rfl, le_refl _, ?_, fun h => h.elim⟩
    intro x; split; omega; exact hgc x

theorem runs_canon (W : Nat) (hW : 1 ≤ W) (ops : List RegOp) (m : RegMap) (gc : Nat → Nat) (c : Nat)
    (hc : c ≤ 8) (hgc : ∀ g, gc g ≤ 32) :
    ∃ m' gc' c', ops.foldl RegOp.run (canon W m gc c) = canon W m' gc' c' ∧ c' ≤ 8 ∧
      ∀ g, gc' g ≤ 32 := by
  induction ops generalizing m gc c with
  | nil => exact ⟨m, gc, c, rfl, hc, hgc⟩
  | cons op ops ih =>
    obtain ⟨m', gc', c', h1, h2, h3, _⟩ := run_canon W hW m gc c hc hgc op
    rw [List.foldl_cons, h1]
    exact ih m' gc' c' h2 h3

theorem regUpdate_fits {W : Nat} {m : RegMap} (hm : ∀ g n, Fits W (m g n)) (g : FKey) (k : GKey)
    (f : Int → Int) (hf : ∀ u, Fits W u → Fits W (f u)) (x y : Nat) :
    Fits W (regUpdate m g k f x y) := by
  unfold regUpdate
  cases groupIndex g with
  | none => exact hm _ _
  | some a =>
    cases regIndex k with
    | none => exact hm _ _
    | some b =>
      simp only
      split
      · exact hf _ (hm _ _)
      · exact hm _ _

theorem regStep_fits (W : Nat) (m : RegMap) (op : RegOp) (hop : InRange op)
    (hm : ∀ g n, Fits W (m g n)) (x y : Nat) : Fits W (regStep W m op x y) := by
  have h0 : Fits W 0 := ⟨le_refl _, by positivity⟩
  cases op with
  | write g k v => exact regUpdate_fits hm g k _ (by intro u hu; split <;> assumption) x y
  | bit g k i b =>
    refine regUpdate_fits hm g k (fun u =>
      if 1 ≤ i ∧ i ≤ W then putField u (W - i).toNat 1 b else u) ?_ x y
    intro u hu
    split
    · exact putField_fits' W _ 1 u b (by omega) hu hop
    · exact hu
  | slice g k s e b =>
    refine regUpdate_fits hm g k (fun u => if 1 ≤ s ∧ s ≤ e ∧ e ≤ W then
      putField u (W - e).toNat (e - s + 1).toNat b else u) ?_ x y
    intro u hu
    split
    · exact putField_fits' W _ _ u b (by omega) hu hop
    · exact hu
  | clearReg g k => exact regUpdate_fits hm g k _ (fun _ _ => h0) x y
  | next g => exact hm x y
  | nextFile => exact hm x y
  | clearGroup g => exact hop.elim
  | clearFile => exact hop.elim

theorem runs_inRange (W : Nat) (hW : 1 ≤ W) (ops : List RegOp) (hops : ∀ op ∈ ops, InRange op)
    (m : RegMap) (gc : Nat → Nat) (c : Nat) (hc : c ≤ 8) (hgc : ∀ g, gc g ≤ 32)
    (hm : ∀ g n, Fits W (m g n)) :
    (∃ gc' c', ops.foldl RegOp.run (canon W m gc c) = canon W (ops.foldl (regStep W) m) gc' c') ∧
      ∀ g n, Fits W (ops.foldl (regStep W) m g n) := by
  induction ops generalizing m gc c with
  | nil => exact ⟨⟨gc, c, rfl⟩, hm⟩
  | cons op ops ih =>
    obtain ⟨m', gc', c', h1, h2, h3, h4⟩ := run_canon W hW m gc c hc hgc op
    have hop := hops op List.mem_cons_self
    have h5 := h4 hop hm
    subst h5
    rw [List.foldl_cons, List.foldl_cons, h1]
    exact ih (fun o ho => hops o (List.mem_cons_of_mem _ ho)) _ gc' c' h2 h3
      (regStep_fits W m op hop hm)

/-! ### Single groups, with assignment -/

/-- The integer keys of the group are 0..31, naming consecutive registers of the store. -/
def GroupInv (base : Nat) (g : RegisterGroup) : Prop :=
  g.current ≤ 32 ∧ ∀ n : Int, dget g.regs (.num n) =
    if 0 ≤ n ∧ n < 32 then some (base + n.toNat) else none

theorem groupInv_next {base : Nat} {g : RegisterGroup} (h : GroupInv base g) :
    g.next = if g.current = 32 then (g, .ok none)
      else ({ g with current := g.current + 1 }, .ok (some (base + g.current))) := by
  obtain ⟨hc, hd⟩ := h
  unfold RegisterGroup.next
  have hlen : REGISTERS.length = 32 := by decide
  rw [hlen]
  by_cases h : g.current = 32
  · rw [if_pos (by omega), if_pos h]
  · rw [if_neg (by omega), if_neg h]
    unfold dgetE
    simp only [hd]
    rw [if_pos (by omega)]; simp

theorem groupInv_loop {base : Nat} (fuel : Nat) (g : RegisterGroup) (h : GroupInv base g)
    (hf : 32 < fuel + g.current) :
    RegisterGroup.loop fuel g =
      ({ g with current := 32 }, .ok (List.range' (base + g.current) (32 - g.current))) := by
  induction fuel generalizing g with
  | zero => have := h.1; omega
  | succ fuel ih =>
    unfold RegisterGroup.loop
    rw [groupInv_next h]
    by_cases hc : g.current = 32
    · rw [if_pos hc]
      obtain ⟨w, d, c⟩ := g
      simp only at hc
      subst hc; simp
    · rw [if_neg hc]
      simp only
      have h' : GroupInv base { g with current := g.current + 1 } := by
        refine ⟨?_, h.2⟩
        have := h.1; simp only; omega
      rw [ih _ h' (by simp only; omega)]
      simp only
      have := h.1
      have : 32 - g.current = (32 - (g.current + 1)) + 1 := by omega
      rw [this, List.range'_succ]
      rfl

theorem groupInv_forLoop {base : Nat} {g : RegisterGroup} (h : GroupInv base g) :
    g.forLoop =
      ({ g with current := 32 }, .ok (List.range' (base + g.current) (32 - g.current))) := by
  unfold RegisterGroup.forLoop
  have hlen : REGISTERS.length = 32 := by decide
  rw [hlen]
  exact groupInv_loop _ g h (by omega)

theorem dget_dset_ne {κ ν : Type} [DecidableEq κ] (d : Dict κ ν) (k k' : κ) (v : ν) (h : k ≠ k') :
    dget (dset d k v) k' = dget d k' := by
  induction d with
  | nil => simp [dset, dget, h]
  | cons p d ih =>
    obtain ⟨a, b⟩ := p
    simp only [dset]
    by_cases ha : a = k
    · rw [if_pos ha]; subst ha; simp [dget, h]
    · rw [if_neg ha]; simp only [dget, ih]

theorem dget_dset_self {κ ν : Type} [DecidableEq κ] (d : Dict κ ν) (k : κ) (v : ν) :
    dget (dset d k v) k = some v := by
  induction d with
  | nil => simp [dset, dget]
  | cons p d ih =>
    obtain ⟨a, b⟩ := p
    simp only [dset]
    by_cases ha : a = k
    · rw [if_pos ha]; simp [dget, ha]
    · rw [if_neg ha]; simp only [dget, ih, if_neg ha]

theorem groupInv_run {base : Nat} {g : RegisterGroup} (h : GroupInv base g) (op : GroupOp) :
    GroupInv base (op.run g) := by
  cases op with
  | next =>
    simp only [GroupOp.run, groupInv_next h]
    split
    · exact h
    · refine ⟨?_, h.2⟩
      have := h.1; simp only; omega
  | forLoop =>
    simp only [GroupOp.run, groupInv_forLoop h]
    exact ⟨le_refl _, h.2⟩
  | clear =>
    simp only [GroupOp.run, RegisterGroup.clear, groupInv_forLoop h]
    exact ⟨le_refl _, h.2⟩
  | setitem k r =>
    cases k with
    | slice => exact h
    | num n => exact h
    | name s =>
      refine ⟨h.1, fun n => ?_⟩
      have := h.2 n
      simp only [GroupOp.run, RegisterGroup.setitem]
      rw [dget_dset_ne _ _ _ _ (by simp), this]

theorem groupInv_runs {base : Nat} {g : RegisterGroup} (h : GroupInv base g) (ops : List GroupOp) :
    GroupInv base (ops.foldl GroupOp.run g) := by
  induction ops generalizing g with
  | nil => exact h
  | cons op ops ih => exact ih (groupInv_run h op)

theorem groupInv_getitem {base : Nat} {g : RegisterGroup} (h : GroupInv base g) (k : GKey) :
    g.getitem k = match regIndex k with
      | some n => .ok (base + n)
      | none => .error .valueError := by
  cases k with
  | slice => rfl
  | num n =>
    have hlen : ((REGISTERS.length : Nat) : Int) = 32 := by decide
    simp only [RegisterGroup.getitem, hlen, regIndex, dgetE, h.2]
    by_cases h : 0 ≤ n ∧ n < 32
    · rw [if_neg (by omega), if_pos h, if_pos h]
    · rw [if_pos (by omega), if_neg h]
  | name s =>
    simp only [RegisterGroup.getitem, dget_REGISTERS]
    cases hr : regIndex (.name s) with
    | none => rfl
    | some n =>
      have := regIndex_lt hr
      simp only [Option.map_some, dgetE]
      rw [h.2, if_pos (by omega)]; simp

theorem nameOf_none (l : Dict Str Int) (n : Int) (h : ∀ p ∈ l, p.2 ≠ n) : nameOf n l = none := by
  induction l with
  | nil => rfl
  | cons p l ih =>
    obtain ⟨a, b⟩ := p
    simp only [nameOf]
    rw [if_neg (h _ List.mem_cons_self), ih (fun q hq => h q (List.mem_cons_of_mem _ hq))]

theorem nameOf_REGISTERS (n : Int) :
    nameOf n REGISTERS = if 0 ≤ n ∧ n < 32 then regNames[n.toNat]? else none := by
  by_cases h : 0 ≤ n ∧ n < 32
  · rw [if_pos h]
    obtain ⟨k, rfl⟩ := Int.eq_ofNat_of_zero_le h.1
    have : ∀ k < 32, nameOf (k : Nat) REGISTERS = regNames[k]? := by decide
    exact this k (by omega)
  · rw [if_neg h]
    apply nameOf_none
    have : ∀ p ∈ REGISTERS, 0 ≤ p.2 ∧ p.2 < 32 := by decide
    intro p hp e
    have := this p hp
    omega

theorem nameOf_ALIASES (n : Int) :
    nameOf n ALIASES = if 28 ≤ n ∧ n < 32 then aliasNames[(n - 28).toNat]? else none := by
  by_cases h : 28 ≤ n ∧ n < 32
  · rw [if_pos h]
    have : n = 28 ∨ n = 29 ∨ n = 30 ∨ n = 31 := by omega
    rcases this with rfl | rfl | rfl | rfl <;> decide
  · rw [if_neg h]
    apply nameOf_none
    have : ∀ p ∈ ALIASES, 28 ≤ p.2 ∧ p.2 < 32 := by decide
    intro p hp e
    have := this p hp
    omega

end H800
