import Verif.Lemmas.BitField
import Verif.Spec.Fields
import Mathlib.Tactic.LinearCombination

/-! A slice write of an MSB-left field is `putField`. -/

namespace H800

open Spec

theorem decomp (v : Int) (lo n : Nat) :
    v = v / 2 ^ (lo + n) * 2 ^ (lo + n) + v / 2 ^ lo % 2 ^ n * 2 ^ lo + v % 2 ^ lo := by
  have h1 := Int.emod_add_mul_ediv v (2 ^ lo)
  have h2 := Int.emod_add_mul_ediv (v / 2 ^ lo) (2 ^ n)
  rw [Int.ediv_ediv_of_nonneg (by positivity), ← pow_add] at h2
  have h3 : (2:Int) ^ (lo + n) = 2 ^ lo * 2 ^ n := pow_add _ _ _
  linear_combination (-1 : Int) * h1 - 2 ^ lo * h2 + (v / 2 ^ (lo + n)) * h3 * 0 -
    (v / 2 ^ (lo + n)) * h3

theorem lor_land_eq_putField (W lo n : Nat) (v x : Int) (hw : lo + n ≤ W) (hv : Fits W v)
    (hx : Fits n x) :
    Int.lor (Int.land v (2 ^ W - 1 - (2 ^ n - 1) * 2 ^ lo)) (x * 2 ^ lo) = putField v lo n x := by
  set v' := Int.lor (Int.land v (2 ^ W - 1 - (2 ^ n - 1) * 2 ^ lo)) (x * 2 ^ lo) with hv'
  have hbit : ∀ k, Int.testBit v' k =
      if lo ≤ k ∧ k < lo + n then Int.testBit x (k - lo) else Int.testBit v k := by
    intro k
    by_cases hk : k < W
    · have := BitField.testBit_newSlice ⟨W, v, .lsb0, .msbLeft⟩ lo n lo x k hk
      unfold BitField.maxval at this
      simp only at this
      rw [hv', this]
      by_cases h1 : lo ≤ k ∧ k < lo + n
      · simp [h1]
      · simp only [h1, decide_false, Bool.not_false, Bool.and_true, if_false]
        by_cases h2 : lo ≤ k
        · rw [(fits_iff _ _).1 hx (k - lo) (by omega)]; simp
        · simp [h2]
    · have h1 : ¬ (lo ≤ k ∧ k < lo + n) := by omega
      rw [if_neg h1, (fits_iff _ _).1 hv k (by omega)]
      exact (fits_iff _ _).1 (fits_lor (fits_land_left _ hv) (fits_shift hx hw)) k (by omega)
  have ha : v' / 2 ^ lo % 2 ^ n = x := by
    apply testBit_ext; intro k
    rw [testBit_mod, testBit_div, hbit]
    by_cases hk : k < n
    · simp [hk]; omega
    · rw [(fits_iff _ _).1 hx k (by omega)]; simp [hk]
  have hb : v' / 2 ^ (lo + n) = v / 2 ^ (lo + n) := by
    apply testBit_ext; intro k
    rw [testBit_div, testBit_div, hbit, if_neg (by omega)]
  have hc : v' % 2 ^ lo = v % 2 ^ lo := by
    apply testBit_ext; intro k
    rw [testBit_mod, testBit_mod, hbit]
    by_cases hk : k < lo
    · rw [if_neg (by omega)]
    · simp [hk]
  have h1 := decomp v' lo n
  have h2 := decomp v lo n
  rw [ha, hb, hc] at h1
  unfold putField field
  linear_combination h1 - h2

theorem field_fits (v : Int) (lo n : Nat) : Fits n (field v lo n) :=
  ⟨Int.emod_nonneg _ (by positivity), Int.emod_lt_of_pos _ (by positivity)⟩

theorem putField_fits' (W lo n : Nat) (v x : Int) (hw : lo + n ≤ W) (hv : Fits W v)
    (hx : Fits n x) : Fits W (putField v lo n x) := by
  rw [← lor_land_eq_putField W lo n v x hw hv hx]
  exact fits_lor (fits_land_left _ hv) (fits_shift hx hw)

namespace BitField

theorem setitem_putField (b : BitField) (s e x : Int) (lo n : Nat)
    (ho : b.order = .msbLeft) (hn : 1 ≤ n) (hw : lo + n ≤ b.width)
    (hs : weightExp b.numbering.code b.width s = lo + n - 1)
    (he : weightExp b.numbering.code b.width e = lo)
    (hb : Fits b.width b.value) (hx : Fits n x) :
    b.setitem (.slice (some s) (some e)) x =
      ({ b with value := putField b.value lo n x }, .ok ()) := by
  have hspan : b.Span s e lo n := ⟨hn, hw, by rw [ho]; exact ⟨he, hs⟩⟩
  have hnew := newSlice_span hspan x
  rw [if_pos (by have := hx.2; omega)] at hnew
  have hm : b.maskPos lo n = lo := by unfold maskPos; rw [ho]
  rw [hm] at hnew
  unfold maxval at hnew
  rw [lor_land_eq_putField _ _ _ _ _ hw hb hx] at hnew
  exact setitem_slice_ok hnew

theorem getitem_field (b : BitField) (s e : Int) (lo n : Nat)
    (ho : b.order = .msbLeft) (hn : 1 ≤ n) (hw : lo + n ≤ b.width)
    (hs : weightExp b.numbering.code b.width s = lo + n - 1)
    (he : weightExp b.numbering.code b.width e = lo) :
    b.getitem (.slice (some s) (some e)) = .ok (field b.value lo n) := by
  have hspan : b.Span s e lo n := ⟨hn, hw, by rw [ho]; exact ⟨he, hs⟩⟩
  unfold getitem
  simp only [getSlice_span hspan]
  unfold maskPos; rw [ho]
  simp only [land_mask_div]; rfl

/-- A single-bit write of 0 or 1 is `putField` of width 1 (either order). -/
theorem setitem_bit_putField (b : BitField) (i x : Int) (p : Nat)
    (hp : weightExp b.numbering.code b.width i = p) (hv : p < b.width)
    (hb : Fits b.width b.value) (hx : Fits 1 x) :
    b.setitem (.idx i) x = ({ b with value := putField b.value p 1 x }, .ok ()) := by
  have hp' : b.wt i = p := hp
  have hn := newIndex_eq b i x
  have hx2 : x = 0 ∨ x = 1 := by unfold Fits at hx; omega
  rw [hp', if_pos (by omega), if_pos (by omega)] at hn
  simp only [Int.toNat_natCast] at hn
  rw [setitem_idx_ok hn]
  congr 2
  rw [← lor_land_eq_putField b.width p 1 b.value x (by omega) hb hx]
  simp only [pow_one]
  rcases hx2 with rfl | rfl
  · simp only [zero_ne_one, if_false, maxval, zero_mul]
    apply testBit_ext; intro k
    rw [Int.testBit_lor, testBit_zero, Bool.or_false]
    congr 2; ring
  · simp only [if_true]
    apply testBit_ext; intro k
    rw [Int.testBit_lor, Int.testBit_lor, Int.testBit_land, one_mul, testBit_pow]
    by_cases hk : k = p
    · simp [hk]
    · simp only [hk, decide_false, Bool.or_false]
      by_cases hkW : k < b.width
      · rw [testBit_compl _ _ _ hkW]
        have : ((2:Int) - 1) * 2 ^ p = 2 ^ p := by ring
        rw [this, testBit_pow]; simp [hk]
      · rw [(fits_iff _ _).1 hb k (by omega)]; rfl

/-! The MSB_1, MSB-left fields used by words, registers and instructions. -/

theorem msb1_span (W : Nat) (v s e : Int) (lo n : Nat) (hn : 1 ≤ n) (hs : s + lo + n = W + 1)
    (he : e + lo = W) (hs1 : 1 ≤ s) : (BitField.mk W v .msb1 .msbLeft).Span s e lo n := by
  refine ⟨hn, ?_, ?_⟩
  · simp only; omega
  · simp only [wt, weightExp, Numbering.code]; omega

theorem msb1_set (W : Nat) (v x s e : Int) (lo n : Nat) (hn : 1 ≤ n) (hs : s + lo + n = W + 1)
    (he : e + lo = W) (hs1 : 1 ≤ s) (hv : Fits W v) (hx : Fits n x) :
    (BitField.mk W v .msb1 .msbLeft).setitem (.slice (some s) (some e)) x =
      (BitField.mk W (putField v lo n x) .msb1 .msbLeft, .ok ()) := by
  obtain ⟨h1, h2, h3, h4⟩ := msb1_span W v s e lo n hn hs he hs1
  exact setitem_putField _ s e x lo n rfl h1 h2 h4 h3 hv hx

theorem msb1_get (W : Nat) (v s e : Int) (lo n : Nat) (hn : 1 ≤ n) (hs : s + lo + n = W + 1)
    (he : e + lo = W) (hs1 : 1 ≤ s) :
    (BitField.mk W v .msb1 .msbLeft).getitem (.slice (some s) (some e)) = .ok (field v lo n) := by
  obtain ⟨h1, h2, h3, h4⟩ := msb1_span W v s e lo n hn hs he hs1
  exact getitem_field _ s e lo n rfl h1 h2 h4 h3

theorem msb1_set_large (W : Nat) (v x s e : Int) (lo n : Nat) (hn : 1 ≤ n)
    (hs : s + lo + n = W + 1) (he : e + lo = W) (hs1 : 1 ≤ s) (hx : ¬ x ≤ 2 ^ n) :
    (BitField.mk W v .msb1 .msbLeft).setitem (.slice (some s) (some e)) x =
      (BitField.mk W v .msb1 .msbLeft, .error .valueError) := by
  have hnew := newSlice_span (msb1_span W v s e lo n hn hs he hs1) x
  rw [if_neg hx] at hnew
  exact setitem_slice_error hnew

theorem msb1_setbit (W : Nat) (v x i : Int) (p : Nat) (hp : i + p = W) (hi : 1 ≤ i)
    (hv : Fits W v) (hx : Fits 1 x) :
    (BitField.mk W v .msb1 .msbLeft).setitem (.idx i) x =
      (BitField.mk W (putField v p 1 x) .msb1 .msbLeft, .ok ()) := by
  apply setitem_bit_putField _ i x p _ _ hv hx
  · simp only [weightExp, Numbering.code]; omega
  · simp only; omega

end BitField

end H800
