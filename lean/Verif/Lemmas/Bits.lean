import Mathlib.Data.Int.Bitwise
import Verif.Spec.Bits
import Mathlib.Tactic.Ring
import Mathlib.Tactic.Positivity

/-! Bit-level arithmetic on `Int`, used by the bit-field proofs. -/

namespace H800

open Spec

theorem testBit_eq (v : Int) (k : Nat) : Int.testBit v k = decide (bitOf v k = 1) := by
  unfold bitOf
  induction k generalizing v with
  | zero =>
    rw [← Int.bit_decomp v, Int.testBit_bit_zero, Int.bit_val]
    cases v.bodd <;> simp
  | succ k ih =>
    conv_lhs => rw [← Int.bit_decomp v, Int.testBit_bit_succ]
    rw [ih, Int.div2_val, Int.ediv_ediv_of_nonneg (by omega), pow_succ']

theorem bitOf_eq (v : Int) (k : Nat) : bitOf v k = if Int.testBit v k then 1 else 0 := by
  rw [testBit_eq]
  unfold bitOf
  simp only [decide_eq_true_eq]
  split <;> omega

theorem bitOf_eq_iff (v w : Int) (k l : Nat) :
    bitOf v k = bitOf w l ↔ Int.testBit v k = Int.testBit w l := by
  rw [bitOf_eq, bitOf_eq]
  cases Int.testBit v k <;> cases Int.testBit w l <;> simp

theorem testBit_ext {a b : Int} (h : ∀ k, Int.testBit a k = Int.testBit b k) : a = b := by
  have key : ∀ (n : Nat) (a b : Int), (∀ k, Int.testBit a k = Int.testBit b k) →
      a.natAbs + b.natAbs ≤ n → a = b := by
    intro n
    induction n with
    | zero => intro a b _ hn; omega
    | succ n ih =>
      intro a b h hn
      have h0 : a % 2 = b % 2 := by
        have := (bitOf_eq_iff a b 0 0).2 (h 0)
        simpa [bitOf] using this
      have h1 : ∀ k, Int.testBit (a / 2) k = Int.testBit (b / 2) k := by
        intro k
        have := (bitOf_eq_iff a b (k+1) (k+1)).2 (h (k+1))
        rw [← bitOf_eq_iff]
        unfold bitOf at *
        rw [pow_succ', ← Int.ediv_ediv_of_nonneg (by omega), ← Int.ediv_ediv_of_nonneg (by omega)] at this
        exact this
      by_cases hz : (a / 2).natAbs + (b / 2).natAbs ≤ n
      · have := ih _ _ h1 hz
        omega
      · -- no progress only for a, b in {0, -1}
        omega
  exact key _ a b h le_rfl

theorem testBit_zero (k : Nat) : Int.testBit 0 k = false := by
  rw [testBit_eq]; simp [bitOf]

theorem testBit_div (x : Int) (s k : Nat) : Int.testBit (x / 2 ^ s) k = Int.testBit x (k + s) := by
  rw [← bitOf_eq_iff]; unfold bitOf
  rw [Int.ediv_ediv_of_nonneg (by positivity), ← pow_add, add_comm]

theorem testBit_mul (x : Int) (s k : Nat) :
    Int.testBit (x * 2 ^ s) k = (decide (s ≤ k) && Int.testBit x (k - s)) := by
  by_cases h : s ≤ k
  · obtain ⟨d, rfl⟩ := Nat.exists_eq_add_of_le h
    simp only [h, decide_true, Bool.true_and, Nat.add_sub_cancel_left]
    rw [← bitOf_eq_iff]; unfold bitOf
    rw [pow_add, ← Int.ediv_ediv_of_nonneg (by positivity), Int.mul_ediv_cancel _ (by positivity)]
  · simp only [h, decide_false, Bool.false_and]
    rw [testBit_eq]
    simp only [decide_eq_false_iff_not]
    obtain ⟨d, rfl⟩ := Nat.exists_eq_add_of_le (Nat.lt_of_not_le h)
    unfold bitOf
    have : x * 2 ^ (k.succ + d) = (x * 2 ^ d * 2) * 2 ^ k := by
      rw [Nat.succ_add, pow_succ, pow_add]; ring
    rw [this, Int.mul_ediv_cancel _ (by positivity)]
    omega

theorem testBit_add_mul (x c : Int) (n k : Nat) (h : k < n) :
    Int.testBit (x + c * 2 ^ n) k = Int.testBit x k := by
  rw [← bitOf_eq_iff]; unfold bitOf
  obtain ⟨d, rfl⟩ := Nat.exists_eq_add_of_le h
  have : x + c * 2 ^ (k.succ + d) = x + (c * 2 ^ d * 2) * 2 ^ k := by
    rw [Nat.succ_add, pow_succ, pow_add]; ring
  rw [this, Int.add_mul_ediv_right _ _ (by positivity)]
  omega

theorem testBit_mod (x : Int) (n k : Nat) :
    Int.testBit (x % 2 ^ n) k = (decide (k < n) && Int.testBit x k) := by
  by_cases h : k < n
  · simp only [h, decide_true, Bool.true_and]
    have := testBit_add_mul (x % 2 ^ n) (x / 2 ^ n) n k h
    rw [← this]
    congr 1
    have := Int.emod_add_mul_ediv x (2 ^ n)
    rw [mul_comm]; exact this
  · simp only [h, decide_false, Bool.false_and]
    rw [testBit_eq]; simp only [decide_eq_false_iff_not]
    unfold bitOf
    have h1 : x % 2 ^ n / 2 ^ k = 0 := by
      apply Int.ediv_eq_zero_of_lt (Int.emod_nonneg _ (by positivity))
      calc x % 2 ^ n < 2 ^ n := Int.emod_lt_of_pos _ (by positivity)
        _ ≤ 2 ^ k := by
          have : (2:Nat) ^ n ≤ 2 ^ k := Nat.pow_le_pow_right (by omega) (by omega)
          exact_mod_cast this
    rw [h1]; omega

theorem fits_iff (n : Nat) (v : Int) : Fits n v ↔ ∀ k, n ≤ k → Int.testBit v k = false := by
  constructor
  · rintro ⟨h0, h1⟩ k hk
    have : v = v % 2 ^ n := (Int.emod_eq_of_lt h0 h1).symm
    rw [this, testBit_mod]
    simp; omega
  · intro h
    have : v = v % 2 ^ n := by
      apply testBit_ext
      intro k
      rw [testBit_mod]
      by_cases hk : k < n
      · simp [hk]
      · simp [hk, h k (by omega)]
    rw [this]
    exact ⟨Int.emod_nonneg _ (by positivity), Int.emod_lt_of_pos _ (by positivity)⟩

theorem testBit_ones (n k : Nat) : Int.testBit (2 ^ n - 1) k = decide (k < n) := by
  have h : (2:Int) ^ n - 1 = (-1) % 2 ^ n := by
    have : (1:Int) ≤ 2 ^ n := by
      have : 1 ≤ (2:Nat) ^ n := Nat.one_le_two_pow
      exact_mod_cast this
    rw [← Int.add_emod_right]
    rw [Int.emod_eq_of_lt] <;> omega
  rw [h, testBit_mod]
  have : Int.testBit (-1) k = true := by
    rw [testBit_eq]
    simp only [decide_eq_true_eq]
    unfold bitOf
    have : (-1 : Int) / 2 ^ k = -1 := by
      apply Int.ediv_eq_neg_one_of_neg_of_le <;> [omega; skip]
      have : 1 ≤ (2:Nat) ^ k := Nat.one_le_two_pow
      have : (1:Int) ≤ 2 ^ k := by exact_mod_cast this
      omega
    rw [this]; rfl
  simp [this]

/-- The mask complement `maxval - m` negates the low `n` bits. -/
theorem testBit_compl (n : Nat) (m : Int) (k : Nat) (h : k < n) :
    Int.testBit (2 ^ n - 1 - m) k = !Int.testBit m k := by
  have h1 : (2:Int) ^ n - 1 - m = Int.lnot m + 1 * 2 ^ n := by
    have : Int.lnot m = -m - 1 := by
      cases m with
      | ofNat a => simp [Int.lnot]; omega
      | negSucc a => simp [Int.lnot]
    rw [this]; ring
  rw [h1, testBit_add_mul _ _ _ _ h, Int.testBit_lnot]

/-- Extracting `n` bits above `s` with a mask is `/ 2^s % 2^n`. -/
theorem land_mask_div (v : Int) (n s : Nat) :
    Int.land v ((2 ^ n - 1) * 2 ^ s) / 2 ^ s = v / 2 ^ s % 2 ^ n := by
  apply testBit_ext
  intro k
  rw [testBit_div, Int.testBit_land, testBit_mul, testBit_ones, testBit_mod, testBit_div]
  simp [Bool.and_comm]

theorem land_one (v : Int) : Int.land v 1 = v % 2 := by
  have := land_mask_div v 1 0
  simpa using this

theorem fits_lor {n : Nat} {a b : Int} (ha : Fits n a) (hb : Fits n b) : Fits n (Int.lor a b) := by
  rw [fits_iff] at *
  intro k hk
  rw [Int.testBit_lor, ha k hk, hb k hk]; rfl

theorem fits_land_left {n : Nat} {a : Int} (b : Int) (ha : Fits n a) : Fits n (Int.land a b) := by
  rw [fits_iff] at *
  intro k hk
  rw [Int.testBit_land, ha k hk]; rfl

theorem fits_shift {n s W : Nat} {x : Int} (hx : Fits n x) (h : s + n ≤ W) : Fits W (x * 2 ^ s) := by
  rw [fits_iff] at *
  intro k hk
  rw [testBit_mul, hx (k - s) (by omega)]; simp

end H800
