import Verif.Model.BitField
import Verif.Lemmas.Bits

/-! Normal forms of the bit-field operations in terms of weights. -/

namespace H800

open Spec

@[simp] theorem py_bind_ok {α β : Type} (a : α) (f : α → Py β) :
    (Except.ok a >>= f : Py β) = f a := rfl

@[simp] theorem py_bind_error {α β : Type} (e : PyErr) (f : α → Py β) :
    (Except.error e >>= f : Py β) = .error e := rfl

@[simp] theorem py_pure {α : Type} (a : α) : (pure a : Py α) = .ok a := rfl

@[simp] theorem py_throw {α : Type} (e : PyErr) : (throw e : Py α) = .error e := rfl

namespace BitField

/-- Weight exponent of index `i`. -/
def wt (b : BitField) (i : Int) : Int := weightExp b.numbering.code b.width i

theorem shift_rindex (b : BitField) (i : Int) : b.shift (b.rindex i) = b.wt i := by
  obtain ⟨W, v, n, o⟩ := b
  cases n <;> cases o <;> simp only [shift, rindex, wt, weightExp, Numbering.code] <;> omega

theorem rindex_eq (b : BitField) (i : Int) :
    b.rindex i = match b.order with | .msbLeft => b.width - 1 - b.wt i | .lsbLeft => b.wt i := by
  obtain ⟨W, v, n, o⟩ := b
  cases n <;> cases o <;> simp only [rindex, wt, weightExp, Numbering.code] <;> omega

theorem checkIndex_some (b : BitField) (i : Int) :
    b.checkIndex (some i) = if 0 ≤ b.wt i ∧ b.wt i < b.width then .ok () else .error .valueError := by
  have h := b.rindex_eq i
  simp only [checkIndex, needInt, py_bind_ok]
  by_cases hc : 0 ≤ b.wt i ∧ b.wt i < b.width
  · rw [if_neg, if_pos hc]; · rfl
    cases ho : b.order <;> simp only [ho] at h <;> omega
  · rw [if_pos, if_neg hc]; · rfl
    cases ho : b.order <;> simp only [ho] at h <;> omega

/-- `s` is not to the right of `e` in the field's left-to-right order. -/
def Ordered (b : BitField) (s e : Int) : Prop :=
  match b.order with
  | .msbLeft => b.wt e ≤ b.wt s
  | .lsbLeft => b.wt s ≤ b.wt e

instance (b : BitField) (s e : Int) : Decidable (b.Ordered s e) := by
  unfold Ordered; split <;> infer_instance

def RangeOk (b : BitField) (s e : Int) : Prop :=
  (0 ≤ b.wt s ∧ b.wt s < b.width) ∧ (0 ≤ b.wt e ∧ b.wt e < b.width) ∧ b.Ordered s e

instance (b : BitField) (s e : Int) : Decidable (b.RangeOk s e) := by
  unfold RangeOk; infer_instance

theorem checkRange_some (b : BitField) (s e : Int) :
    b.checkRange (some s) (some e) =
      if b.RangeOk s e then .ok () else .error .valueError := by
  unfold checkRange RangeOk
  simp only [checkIndex_some, needInt]
  by_cases h1 : 0 ≤ b.wt s ∧ b.wt s < b.width
  · by_cases h2 : 0 ≤ b.wt e ∧ b.wt e < b.width
    · simp only [h1, h2, and_self, if_true, true_and, py_bind_ok]
      obtain ⟨W, v, n, o⟩ := b
      cases n <;> cases o <;>
        simp only [wt, weightExp, Numbering.code, Ordered, reduceCtorEq, or_self, or_true,
          if_true, if_false, or_false] <;>
        (by_cases h3 : s < e <;> by_cases h4 : e < s <;> simp only [gt_iff_lt, h3, h4, if_true, if_false, py_throw, py_pure]) <;>
        first
          | (exfalso; omega)
          | (rw [if_pos (by omega)])
          | (rw [if_neg (by omega)])
    · simp only [h1, h2, and_self, if_true, if_false, py_bind_ok, py_bind_error, false_and, and_false]
  · simp only [h1, if_false, py_bind_error, false_and]

theorem checkRange_ok {b : BitField} {s e : Int} (h : b.RangeOk s e) :
    b.checkRange (some s) (some e) = .ok () := by rw [checkRange_some, if_pos h]

theorem getRange_some (b : BitField) (s e : Int) :
    b.getRange (some s) (some e) =
      if b.RangeOk s e then .ok (b.rindex s, b.rindex e) else .error .valueError := by
  unfold getRange
  rw [checkRange_some]
  split <;> simp [needInt]

/-- Left edge of the range: `s` weighs `hi`, `e` weighs `lo` (MSB-left) or the converse. -/
def Span (b : BitField) (s e : Int) (lo n : Nat) : Prop :=
  1 ≤ n ∧ lo + n ≤ b.width ∧
  match b.order with
  | .msbLeft => b.wt e = lo ∧ b.wt s = lo + n - 1
  | .lsbLeft => b.wt s = lo ∧ b.wt e = lo + n - 1

theorem rangeOk_iff (b : BitField) (s e : Int) : b.RangeOk s e ↔ ∃ lo n, b.Span s e lo n := by
  unfold RangeOk Span Ordered
  cases b.order <;> simp only <;> constructor
  · rintro ⟨h1, h2, h3⟩
    exact ⟨(b.wt e).toNat, (b.wt s - b.wt e + 1).toNat, by omega, by omega, by omega, by omega⟩
  · rintro ⟨lo, n, h1, h2, h3, h4⟩; omega
  · rintro ⟨h1, h2, h3⟩
    exact ⟨(b.wt s).toNat, (b.wt e - b.wt s + 1).toNat, by omega, by omega, by omega, by omega⟩
  · rintro ⟨lo, n, h1, h2, h3, h4⟩; omega

/-- The shift applied to the mask by `_bitmask`. -/
def maskPos (b : BitField) (lo n : Nat) : Nat :=
  match b.order with
  | .msbLeft => lo
  | .lsbLeft => if n = b.width then 0 else lo + n - 1

theorem span_rangeOk {b : BitField} {s e : Int} {lo n : Nat} (h : b.Span s e lo n) :
    b.RangeOk s e := (b.rangeOk_iff s e).2 ⟨lo, n, h⟩

theorem span_width {b : BitField} {s e : Int} {lo n : Nat} (h : b.Span s e lo n) :
    b.rindex e - b.rindex s + 1 = n := by
  obtain ⟨h1, h2, h3⟩ := h
  rw [rindex_eq, rindex_eq]
  cases ho : b.order <;> simp only [ho] at * <;> omega

theorem span_shift {b : BitField} {s e : Int} {lo n : Nat} (h : b.Span s e lo n) :
    b.shift (b.lsbIndex (b.rindex s) (b.rindex e)) = lo := by
  obtain ⟨h1, h2, h3⟩ := h
  rw [rindex_eq, rindex_eq]
  unfold shift lsbIndex
  cases ho : b.order <;> simp only [ho] at * <;> omega

theorem shl_nat (x : Int) (s : Nat) : shl x s = .ok (x * 2 ^ s) := by
  unfold shl; rw [if_neg (by omega)]; rfl

theorem shr_nat (x : Int) (s : Nat) : shr x s = .ok (x / 2 ^ s) := by
  unfold shr; rw [if_neg (by omega)]; rfl

theorem pow2_nat (n : Nat) : pow2 n = 2 ^ n := rfl

theorem bitmask_span {b : BitField} {s e : Int} {lo n : Nat} (h : b.Span s e lo n) :
    b.bitmask (some s) (some e) = .ok ((2 ^ n - 1) * 2 ^ b.maskPos lo n) := by
  unfold bitmask
  rw [getRange_some, checkRange_some, if_pos (span_rangeOk h), if_pos (span_rangeOk h)]
  simp only [py_bind_ok]
  rw [span_width h, pow2_nat, shift_rindex]
  have : (if (n : Int) = b.width then 0 else b.wt e) = (b.maskPos lo n : Nat) := by
    obtain ⟨h1, h2, h3⟩ := h
    unfold maskPos
    cases ho : b.order <;> simp only [ho] at * <;> split <;> (try split) <;> omega
  rw [this, shl_nat]

theorem getSlice_span {b : BitField} {s e : Int} {lo n : Nat} (h : b.Span s e lo n) :
    b.getSlice (some s) (some e) =
      .ok (Int.land b.value ((2 ^ n - 1) * 2 ^ b.maskPos lo n) / 2 ^ lo) := by
  unfold getSlice
  rw [getRange_some, checkRange_some, if_pos (span_rangeOk h), if_pos (span_rangeOk h),
    bitmask_span h]
  simp only [py_bind_ok]
  rw [span_shift h, shr_nat]

theorem checkValue_some {b : BitField} {x : Int} {n : Nat} (h : n ≤ b.width) (hn : 1 ≤ n) :
    b.checkValue x (some n) = if x ≤ 2 ^ n then .ok () else .error .valueError := by
  unfold checkValue maxval
  have : b.width < 2 ^ b.width := Nat.lt_two_pow_self
  have : (b.width : Int) < 2 ^ b.width := by exact_mod_cast this
  have h1 : ¬ (((n : Int)) < 0 ∨ (n : Int) > 2 ^ b.width - 1) := by omega
  simp only [Option.getD_some, h1, if_false, pow2_nat]
  by_cases hx : x ≤ 2 ^ n
  · have : ¬ x > 2 ^ n := by omega
    simp [hx]
  · have : x > 2 ^ n := by omega
    simp [hx, this]

theorem newSlice_span {b : BitField} {s e : Int} {lo n : Nat} (h : b.Span s e lo n) (x : Int) :
    b.newSlice (some s) (some e) x =
      if x ≤ 2 ^ n then
        .ok (Int.lor (Int.land b.value (b.maxval - (2 ^ n - 1) * 2 ^ b.maskPos lo n)) (x * 2 ^ lo))
      else .error .valueError := by
  unfold newSlice
  rw [getRange_some, checkRange_some, if_pos (span_rangeOk h), if_pos (span_rangeOk h),
    bitmask_span h]
  simp only [py_bind_ok]
  rw [span_shift h, shl_nat, span_width h, checkValue_some (by have := h.2.1; omega) h.1]
  split <;> rfl

theorem getIndex_eq (b : BitField) (i : Int) :
    b.getIndex i = if 0 ≤ b.wt i ∧ b.wt i < b.width then .ok (bitOf b.value (b.wt i).toNat)
      else .error .valueError := by
  unfold getIndex
  rw [checkIndex_some]
  split
  · rename_i h
    simp only [py_bind_ok]
    rw [shift_rindex]
    obtain ⟨k, hk⟩ := Int.eq_ofNat_of_zero_le h.1
    rw [hk]
    rw [shr_nat]
    simp only [py_bind_ok, py_pure, land_one]
    rfl
  · rfl

theorem newIndex_eq (b : BitField) (i x : Int) :
    b.newIndex i x = if 0 ≤ b.wt i ∧ b.wt i < b.width then
        (if x ≤ 2 then
          .ok (if x = 1 then Int.lor b.value (2 ^ (b.wt i).toNat)
            else Int.land b.value (b.maxval - 2 ^ (b.wt i).toNat))
        else .error .valueError)
      else .error .valueError := by
  unfold newIndex
  rw [checkIndex_some]
  split
  · rename_i h
    simp only [py_bind_ok]
    have := checkValue_some (b := b) (x := x) (n := 1) (by omega) (by omega)
    simp only [Nat.cast_one] at this
    rw [this]
    simp only [pow_one]
    split
    · simp only [py_bind_ok]
      rw [shift_rindex]
      obtain ⟨k, hk⟩ := Int.eq_ofNat_of_zero_le h.1
      rw [hk]
      rw [shl_nat]
      simp only [py_bind_ok, one_mul]
      by_cases hx : x = 1
      · simp only [hx, if_true, shl_nat, py_bind_ok, one_mul, py_pure]; rfl
      · simp only [hx, if_false, py_pure]; rfl
    · rfl
  · rfl

theorem setitem_idx_ok {b : BitField} {i x v : Int} (h : b.newIndex i x = .ok v) :
    b.setitem (.idx i) x = ({ b with value := v }, .ok ()) := by
  unfold setitem; simp only [h]

theorem setitem_idx_error {b : BitField} {i x : Int} {err : PyErr} (h : b.newIndex i x = .error err) :
    b.setitem (.idx i) x = (b, .error err) := by
  unfold setitem; simp only [h]

theorem setitem_slice_ok {b : BitField} {s e : Option Int} {x v : Int}
    (h : b.newSlice s e x = .ok v) :
    b.setitem (.slice s e) x = ({ b with value := v }, .ok ()) := by
  unfold setitem; simp only [h]

theorem setitem_slice_error {b : BitField} {s e : Option Int} {x : Int} {err : PyErr}
    (h : b.newSlice s e x = .error err) : b.setitem (.slice s e) x = (b, .error err) := by
  unfold setitem; simp only [h]

theorem wt_vindex (b : BitField) (r : Int) :
    b.wt (b.vindex r) = match b.order with | .msbLeft => b.width - 1 - r | .lsbLeft => r := by
  obtain ⟨W, v, n, o⟩ := b
  cases n <;> cases o <;> simp only [vindex, wt, weightExp, Numbering.code] <;> omega

theorem wt_inj (b : BitField) (i j : Int) (h : b.wt i = b.wt j) : i = j := by
  obtain ⟨W, v, n, o⟩ := b
  cases n <;> simp only [wt, weightExp, Numbering.code] at h <;> omega

theorem mem_indices (b : BitField) (i : Int) :
    i ∈ b.indices ↔ 0 ≤ b.wt i ∧ b.wt i < b.width := by
  unfold indices
  simp only [List.mem_map, List.mem_range]
  constructor
  · rintro ⟨r, hr, rfl⟩
    rw [wt_vindex]
    cases b.order <;> simp only <;> omega
  · intro h
    cases ho : b.order
    · refine ⟨(b.width - 1 - b.wt i).toNat, by omega, ?_⟩
      apply wt_inj b
      rw [wt_vindex, ho]; simp only; omega
    · refine ⟨(b.wt i).toNat, by omega, ?_⟩
      apply wt_inj b
      rw [wt_vindex, ho]; simp only; omega

theorem testBit_pow (p k : Nat) : Int.testBit (2 ^ p) k = decide (k = p) := by
  have := testBit_mul 1 p k
  rw [one_mul] at this
  rw [this]
  by_cases h : k = p
  · subst h; simp; decide
  · by_cases h2 : p ≤ k
    · simp only [h2, decide_true, Bool.true_and, h, decide_false]
      obtain ⟨d, hd⟩ := Nat.exists_eq_add_of_lt (Nat.lt_of_le_of_ne h2 (Ne.symm h))
      have : k - p = d + 1 := by omega
      rw [this, testBit_eq]
      simp only [decide_eq_false_iff_not]; unfold bitOf
      have h1 : 1 ≤ (2:Nat) ^ d := Nat.one_le_two_pow
      have h1 : (1 : Int) ≤ 2 ^ d := by exact_mod_cast h1
      rw [Int.ediv_eq_zero_of_lt (by omega) (by rw [pow_succ]; omega)]; omega
    · simp [h2, h]

theorem fits_maxval (b : BitField) : Fits b.width b.maxval := by
  unfold Fits maxval
  have h1 : 1 ≤ (2:Nat) ^ b.width := Nat.one_le_two_pow
  have h1 : (1 : Int) ≤ 2 ^ b.width := by exact_mod_cast h1
  omega

theorem fits_pow {p W : Nat} (h : p < W) : Fits W (2 ^ p) := by
  rw [fits_iff]; intro k hk; rw [testBit_pow]; simp; omega

/-- Bits of the value computed by a slice write, in either order. -/
theorem testBit_newSlice (b : BitField) (lo n m : Nat) (x : Int) (k : Nat) (hk : k < b.width) :
    Int.testBit (Int.lor (Int.land b.value (b.maxval - (2 ^ n - 1) * 2 ^ m)) (x * 2 ^ lo)) k
      = ((Int.testBit b.value k && !(decide (m ≤ k ∧ k < m + n))) ||
          (decide (lo ≤ k) && Int.testBit x (k - lo))) := by
  rw [Int.testBit_lor, Int.testBit_land]
  unfold maxval
  rw [testBit_compl _ _ _ hk, testBit_mul, testBit_mul, testBit_ones]
  congr 3
  by_cases h1 : m ≤ k
  · simp only [h1, decide_true, Bool.true_and, true_and]
    congr 1; simp only [eq_iff_iff]; omega
  · simp [h1]

theorem fits_setIndex (b : BitField) (i x : Int) (hb : Fits b.width b.value) (hx : Fits 1 x) :
    Fits b.width (b.setitem (.idx i) x).1.value := by
  have hn := newIndex_eq b i x
  unfold setitem
  by_cases hv : 0 ≤ b.wt i ∧ b.wt i < b.width
  · rw [if_pos hv] at hn
    have hx2 : x = 0 ∨ x = 1 := by unfold Fits at hx; omega
    rw [if_pos (by omega)] at hn
    simp only [hn]
    rcases hx2 with rfl | rfl
    · simp only [zero_ne_one, if_false]; exact fits_land_left _ hb
    · simp only [if_true]; exact fits_lor hb (fits_pow (by omega))
  · rw [if_neg hv] at hn
    simp only [hn]; exact hb

theorem allBits_iff (lo n : Nat) (v x : Int) (hx : x = 0 ∨ x = 1) :
    AllBits lo n v x ↔ v / 2 ^ lo % 2 ^ n = x * (2 ^ n - 1) := by
  constructor
  · intro h
    apply testBit_ext
    intro k
    rw [testBit_mod, testBit_div]
    rcases hx with rfl | rfl
    · rw [zero_mul, testBit_zero]
      by_cases hk : k < n
      · have := h (k + lo) (by omega) (by omega)
        rw [testBit_eq, this]; simp
      · simp [hk]
    · rw [one_mul, testBit_ones]
      by_cases hk : k < n
      · have := h (k + lo) (by omega) (by omega)
        rw [testBit_eq, this]; simp [hk]
      · simp [hk]
  · intro h k h1 h2
    obtain ⟨j, rfl⟩ := Nat.exists_eq_add_of_le h1
    have hj : j < n := by omega
    have ht : Int.testBit (v / 2 ^ lo % 2 ^ n) j = Int.testBit (x * (2 ^ n - 1)) j := by rw [h]
    rw [testBit_mod, testBit_div] at ht
    rw [bitOf_eq, add_comm lo j]
    simp only [hj, decide_true, Bool.true_and] at ht
    rw [ht]
    rcases hx with rfl | rfl
    · rw [zero_mul, testBit_zero]; rfl
    · rw [one_mul, testBit_ones]; simp [hj]

end BitField

end H800
