import Verif.Model.Percent
import Verif.Props.Tools
import Verif.Lemmas.Numeral
import Verif.Lemmas.GenPages
import Verif.Lemmas.ListingTool
import Mathlib.Tactic.Linarith
import Mathlib.Tactic.Positivity
import Mathlib.Tactic.Ring
import Mathlib.Tactic.FieldSimp
import Mathlib.Tactic.NormNum

/-!
Property C139: the percentages of the frequency report.
-/

namespace H800

open Spec

/-! ### Auxiliary facts -/

theorem roundHalfEven_near (q : ℚ) : |(roundHalfEven q : ℚ) - q| ≤ 1 / 2 := by
  have h1 := Int.floor_le q
  have h2 := Int.lt_floor_add_one q
  unfold roundHalfEven
  rw [abs_le]
  split
  · constructor <;> linarith
  · split
    · push_cast
      constructor <;> linarith
    · have h3 : q - ⌊q⌋ = 1 / 2 := by linarith
      split
      · constructor <;> linarith
      · push_cast
        constructor <;> linarith

theorem roundHalfEven_int (z : ℤ) : roundHalfEven z = z := by
  unfold roundHalfEven
  rw [Int.floor_intCast, if_pos (by norm_num)]

theorem toDouble_near {q : ℚ} (h : 0 ≤ q) : |toDouble q - q| ≤ q / 2 ^ 53 := by
  unfold toDouble
  split
  · rename_i h0
    rw [h0]
    norm_num
  · rename_i h0
    have hq : 0 < q := lt_of_le_of_ne h (Ne.symm h0)
    have hu : (0 : ℚ) < 2 ^ (Int.log 2 q - 52) := zpow_pos (by norm_num) _
    have hl : (2 : ℚ) ^ (Int.log 2 q) ≤ q := by
      have := Int.zpow_log_le_self (b := 2) (R := ℚ) (by norm_num) hq
      simpa using this
    have hn := roundHalfEven_near (q / 2 ^ (Int.log 2 q - 52))
    set u : ℚ := 2 ^ (Int.log 2 q - 52) with hu'
    have hul : u * 2 ^ 52 ≤ q := by
      refine le_trans (le_of_eq ?_) hl
      rw [hu', ← zpow_natCast, ← zpow_add₀ (by norm_num)]
      congr 1
      norm_num
    have heq : (roundHalfEven (q / u) : ℚ) * u - q = ((roundHalfEven (q / u) : ℚ) - q / u) * u := by
      field_simp
    rw [heq, abs_mul, abs_of_pos hu]
    have h2 := mul_le_mul_of_nonneg_right hn hu.le
    refine le_trans h2 ?_
    rw [le_div_iff₀ (by norm_num)]
    linarith

theorem roundHalfEven_mono {p q : ℚ} (h : p ≤ q) : roundHalfEven p ≤ roundHalfEven q := by
  have hf := Int.floor_le_floor h
  rcases eq_or_lt_of_le hf with he | hl
  · unfold roundHalfEven
    rw [he]
    split_ifs <;> first | omega | (exfalso; linarith)
  · have h1 : roundHalfEven p ≤ ⌊p⌋ + 1 := by unfold roundHalfEven; split_ifs <;> omega
    have h2 : ⌊q⌋ ≤ roundHalfEven q := by unfold roundHalfEven; split_ifs <;> omega
    omega

theorem toDouble_nonneg {q : ℚ} (h : 0 ≤ q) : 0 ≤ toDouble q := by
  have := toDouble_near h
  rw [abs_le] at this
  linarith [this.1]

theorem toDouble_mono {p q : ℚ} (hp : 0 ≤ p) (h : p ≤ q) : toDouble p ≤ toDouble q := by
  rcases eq_or_lt_of_le hp with rfl | hp
  · rw [show toDouble 0 = 0 from if_pos rfl]
    exact toDouble_nonneg h
  · have hq : 0 < q := lt_of_lt_of_le hp h
    have hlog := Int.log_mono_right (b := 2) hp h
    unfold toDouble
    rw [if_neg hp.ne', if_neg hq.ne']
    have hup : (0 : ℚ) < 2 ^ (Int.log 2 p - 52) := zpow_pos (by norm_num) _
    have huq : (0 : ℚ) < 2 ^ (Int.log 2 q - 52) := zpow_pos (by norm_num) _
    rcases eq_or_lt_of_le hlog with he | hl
    · rw [he]
      refine mul_le_mul_of_nonneg_right ?_ huq.le
      exact_mod_cast roundHalfEven_mono (div_le_div_of_nonneg_right h huq.le)
    · have h1 : (roundHalfEven (p / 2 ^ (Int.log 2 p - 52)) : ℚ) ≤ 2 ^ 53 := by
        have hlt : p < 2 ^ (Int.log 2 p + 1) := by
          have := Int.lt_zpow_succ_log_self (b := 2) (by norm_num) p
          simpa using this
        have : p / 2 ^ (Int.log 2 p - 52) ≤ ((2 ^ 53 : ℤ) : ℚ) := by
          rw [div_le_iff₀ hup]
          refine hlt.le.trans (le_of_eq ?_)
          rw [show (((2 ^ 53 : ℤ) : ℚ)) = 2 ^ 53 by norm_num]
          rw [← zpow_natCast, ← zpow_add₀ (by norm_num)]
          congr 1
          push_cast
          ring
        have := roundHalfEven_mono this
        rw [roundHalfEven_int] at this
        exact_mod_cast this
      have h2 : (2 : ℚ) ^ 52 ≤ roundHalfEven (q / 2 ^ (Int.log 2 q - 52)) := by
        have hle : (2 : ℚ) ^ (Int.log 2 q) ≤ q := by
          have := Int.zpow_log_le_self (b := 2) (R := ℚ) (by norm_num) hq
          simpa using this
        have : ((2 ^ 52 : ℤ) : ℚ) ≤ q / 2 ^ (Int.log 2 q - 52) := by
          rw [le_div_iff₀ huq]
          refine le_trans (le_of_eq ?_) hle
          rw [show (((2 ^ 52 : ℤ) : ℚ)) = 2 ^ 52 by norm_num]
          rw [← zpow_natCast, ← zpow_add₀ (by norm_num)]
          congr 1
          push_cast
          ring
        have := roundHalfEven_mono this
        rw [roundHalfEven_int] at this
        exact_mod_cast this
      calc _ ≤ (2 : ℚ) ^ 53 * 2 ^ (Int.log 2 p - 52) := mul_le_mul_of_nonneg_right h1 hup.le
        _ = 2 ^ (Int.log 2 p + 1) := by
          rw [← zpow_natCast, ← zpow_add₀ (by norm_num)]
          congr 1
          push_cast
          ring
        _ ≤ 2 ^ Int.log 2 q := zpow_le_zpow_right₀ (by norm_num) (by omega)
        _ = 2 ^ 52 * 2 ^ (Int.log 2 q - 52) := by
          rw [← zpow_natCast, ← zpow_add₀ (by norm_num)]
          congr 1
          push_cast
          ring
        _ ≤ _ := mul_le_mul_of_nonneg_right h2 huq.le

theorem toDouble_nat {n : Nat} (h : n < 2 ^ 53) : toDouble n = n := by
  unfold toDouble
  split
  · rename_i h0
    exact h0.symm
  · rename_i h0
    have hn : n ≠ 0 := by exact_mod_cast h0
    have hlog : Int.log 2 (n : ℚ) = Nat.log 2 n := Int.log_natCast 2 n
    have hl : Nat.log 2 n ≤ 52 := by
      have := Nat.log_lt_of_lt_pow hn h
      omega
    obtain ⟨k, hk⟩ := Nat.exists_eq_add_of_le hl
    have he : Int.log 2 (n : ℚ) - 52 = -(k : ℤ) := by
      rw [hlog]
      omega
    rw [he, zpow_neg, zpow_natCast]
    have h2 : (2 : ℚ) ^ k ≠ 0 := by positivity
    have : (n : ℚ) / (2 ^ k)⁻¹ = ((n * 2 ^ k : ℤ) : ℚ) := by
      push_cast
      rw [div_inv_eq_mul]
    rw [this, roundHalfEven_int]
    push_cast
    field_simp

/-- The error of a rounding is at most half the distance of the doubles there. -/
theorem toDouble_half {q : ℚ} (hq : 0 ≤ q) {k : ℤ} (hk : q < 2 ^ k) :
    |toDouble q - q| ≤ 2 ^ (k - 54) := by
  unfold toDouble
  split
  · rename_i h0
    rw [h0, sub_zero, abs_zero]
    exact (zpow_pos (by norm_num) _).le
  · rename_i h0
    have hq : 0 < q := lt_of_le_of_ne hq (Ne.symm h0)
    have hl : Int.log 2 q < k := by
      have h := Int.zpow_log_le_self (b := 2) (R := ℚ) (by norm_num) hq
      have h : (2 : ℚ) ^ (Int.log 2 q) < 2 ^ k := lt_of_le_of_lt (by simpa using h) hk
      exact (zpow_lt_zpow_iff_right₀ (by norm_num)).1 h
    have hn := roundHalfEven_near (q / 2 ^ (Int.log 2 q - 52))
    have hu : (0 : ℚ) < 2 ^ (Int.log 2 q - 52) := zpow_pos (by norm_num) _
    have hle : (2 : ℚ) ^ (Int.log 2 q - 52) ≤ 2 ^ (k - 54 + 1) :=
      zpow_le_zpow_right₀ (by norm_num) (by omega)
    rw [zpow_add₀ (by norm_num), zpow_one] at hle
    generalize (2 : ℚ) ^ (Int.log 2 q - 52) = u at *
    have heq : (roundHalfEven (q / u) : ℚ) * u - q = ((roundHalfEven (q / u) : ℚ) - q / u) * u := by
      field_simp
    rw [heq, abs_mul, abs_of_pos hu]
    have h2 := mul_le_mul_of_nonneg_right hn hu.le
    linarith

/-- The doubles from 64 to 128 are the multiples of 2^-46. -/
theorem toDouble_grid {q : ℚ} (h1 : 64 ≤ q) (h2 : q < 128) :
    ∃ z : ℤ, toDouble q = z / 2 ^ 46 := by
  have hl : Int.log 2 q = 6 := by
    have hq : 0 < q := by linarith
    have a : (6 : ℤ) ≤ Int.log 2 q :=
      (Int.zpow_le_iff_le_log (b := 2) (by norm_num) hq).1 (by norm_num; exact h1)
    have b : Int.log 2 q < 7 :=
      (Int.lt_zpow_iff_log_lt (b := 2) (by norm_num) hq).1 (by norm_num; exact h2)
    omega
  refine ⟨roundHalfEven (q / 2 ^ (Int.log 2 q - 52)), ?_⟩
  unfold toDouble
  rw [if_neg (by linarith), hl]
  norm_num [zpow_neg]
  ring

theorem percentage_quotient {n total : Nat} (hn : n ≤ total) (ht : total < 764877654117) :
    percentage n total = toDouble (100 * n / total) := by
  unfold percentage
  rw [toDouble_nat (n := n) (by omega), toDouble_nat (n := total) (by omega)]
  have h1 : (100 * n : ℚ) = ((100 * n : Nat) : ℚ) := by push_cast; rfl
  rw [h1, toDouble_nat (n := 100 * n) (by omega)]

/-- The remainder by 25 of a total with a fraction next to a half and the half next to a double. -/
theorem across_rem {t c m z : ℤ}
    (h : 20000 * c - m * t = 1 ∧ m * 2 ^ 43 - 25 * z = 1 ∨
      20000 * c - m * t = -1 ∧ m * 2 ^ 43 - 25 * z = -1) : t % 25 = 17 := by
  rcases h with ⟨h, h'⟩ | ⟨h, h'⟩
  · obtain ⟨y, hy⟩ : ∃ y, 8 * m - 25 * y = 1 := ⟨z - m * 351843720888, by linarith⟩
    obtain ⟨a, rfl⟩ : ∃ a, m = 25 * a + 22 := ⟨m / 25, by clear h h'; omega⟩
    have e : (25 * a + 22) * t = 25 * (a * t) + 22 * t := by ring
    rw [e] at h
    generalize a * t = b at h
    clear h'
    omega
  · obtain ⟨y, hy⟩ : ∃ y, 8 * m - 25 * y = -1 := ⟨z - m * 351843720888, by linarith⟩
    obtain ⟨a, rfl⟩ : ∃ a, m = 25 * a + 3 := ⟨m / 25, by clear h h'; omega⟩
    have e : (25 * a + 3) * t = 25 * (a * t) + 3 * t := by ring
    rw [e] at h
    generalize a * t = b at h
    clear h'
    omega

theorem across_int {s t c m z j k : ℤ} (hs : s = 1 ∨ s = -1) (h0 : 0 < t) (ht : t < 764877654117)
    (hj : 1 ≤ j) (hk0 : 0 ≤ k) (hjd : j = s * (20000 * c - m * t))
    (hk : k = s * (m * 2 ^ 43 - 25 * z)) (hsum : j * 2 ^ 47 + 16 * k * t ≤ 200 * t) : False := by
  have hk2 : k < 2 := by
    by_contra hk2
    have : 2 * t ≤ k * t := mul_le_mul_of_nonneg_right (by omega) h0.le
    have e : 16 * k * t = 16 * (k * t) := by ring
    omega
  have hk' : k = 0 ∨ k = 1 := by omega
  rcases hk' with rfl | rfl
  · -- the half is a double itself
    obtain ⟨r, hr⟩ : ∃ r, m = 25 * r := by
      obtain ⟨y, hy⟩ : ∃ y, 8 * m = 25 * y := ⟨z - m * 351843720888, by
        rcases hs with rfl | rfl <;> linarith⟩
      exact ⟨m / 25, by omega⟩
    have hj25 : j = 25 * (s * (800 * c - r * t)) := by rw [hjd, hr]; ring
    generalize s * (800 * c - r * t) = y at hj25
    clear hjd hk hr
    norm_num at hsum
    linarith [show 1 ≤ y by omega]
  · have hj1 : j = 1 := by clear hjd hk; norm_num at hsum; omega
    have hlow : 764877654106 ≤ t := by clear hjd hk; norm_num at hsum; omega
    rw [hj1] at hjd
    have h17 := across_rem (t := t) (c := c) (m := m) (z := z) ?_
    · clear hjd hk hsum
      omega
    rcases hs with rfl | rfl
    · exact Or.inl ⟨by linarith, by linarith⟩
    · exact Or.inr ⟨by linarith, by linarith⟩

/-- No double is on the other side of a half of a hundredth than the fraction it is nearest to. -/
theorem not_across {c t m : ℤ} {s : ℤ} (hs : s = 1 ∨ s = -1) (h0 : 0 < t) (ht : t < 764877654117)
    (hc : 0 ≤ c) (hct : c ≤ t) (hj : 1 ≤ s * (20000 * c - m * t)) {d : ℚ}
    (hd : s * (200 * d - m) ≤ 0) (hnear : d = toDouble (100 * c / t)) : False := by
  have ht0 : (0 : ℚ) < t := by exact_mod_cast h0
  have hc0 : (0 : ℚ) ≤ c := by exact_mod_cast hc
  have hct' : (c : ℚ) ≤ t := by exact_mod_cast hct
  have htl : (t : ℚ) ≤ 764877654116 := by exact_mod_cast Int.le_of_lt_add_one ht
  set x : ℚ := 100 * c / t with hx
  have hx0 : 0 ≤ x := by positivity
  have hxe : x * t = 100 * c := by rw [hx]; field_simp
  have hx1 : x ≤ 100 := by rw [hx, div_le_iff₀ ht0]; linarith
  set j : ℤ := s * (20000 * c - m * t) with hjd
  have hje : (j : ℚ) = s * (200 * x - m) * t := by
    rw [hjd]
    push_cast
    have : (200 * x - m) * (t : ℚ) = 20000 * c - m * t := by linarith
    rw [← this]
    ring
  have hj1 : (1 : ℚ) ≤ j := by exact_mod_cast hj
  have hs2 : (s : ℚ) * s = 1 := by rcases hs with rfl | rfl <;> norm_num
  have hss : (s : ℚ) * (x - d) ≤ |d - x| := by
    rcases hs with rfl | rfl
    · push_cast; rw [one_mul]; exact (le_abs_self _).trans (by rw [abs_sub_comm])
    · push_cast; linarith [le_abs_self (d - x)]
  rcases lt_or_ge x 64 with h64 | h64
  · -- below 64 the doubles are so close that there is nothing between
    have hh := toDouble_half hx0 (k := 6) (by norm_num; exact h64)
    rw [← hnear] at hh
    norm_num at hh
    have e1 : (s : ℚ) * (200 * x - m) ≤ 200 * |d - x| := by nlinarith
    have e2 : (j : ℚ) ≤ 200 * |d - x| * t := by
      rw [hje]
      exact mul_le_mul_of_nonneg_right e1 ht0.le
    have e3 : 200 * |d - x| * t ≤ 200 * (1 / 281474976710656) * 764877654116 := by
      have := abs_nonneg (d - x)
      nlinarith
    norm_num at e3
    linarith
  · obtain ⟨z, hz⟩ := toDouble_grid h64 (by linarith)
    have hh := toDouble_half hx0 (k := 7) (by norm_num; linarith)
    rw [← hnear] at hh hz
    norm_num at hh hz
    set k : ℤ := s * (m * 2 ^ 43 - 25 * z) with hk
    have hke : (k : ℚ) = s * (m - 200 * d) * 2 ^ 43 := by
      rw [hk, hz]
      push_cast
      ring
    have hk0 : 0 ≤ k := by
      have : (0 : ℚ) ≤ k := by
        rw [hke]
        have : 0 ≤ (s : ℚ) * (m - 200 * d) := by linarith
        positivity
      exact_mod_cast this
    -- the two distances together are at most half the distance of the doubles
    have hsum : (j : ℚ) * 2 ^ 47 + 16 * k * t ≤ 200 * t := by
      rw [hje, hke]
      have e1 : (s : ℚ) * (200 * x - m) * t * 2 ^ 47 + 16 * (s * (m - 200 * d) * 2 ^ 43) * t =
          200 * (s * (x - d)) * 2 ^ 47 * t := by ring
      rw [e1]
      refine mul_le_mul_of_nonneg_right ?_ ht0.le
      linarith
    have hsum : j * 2 ^ 47 + 16 * k * t ≤ 200 * t := by exact_mod_cast hsum
    exact across_int hs h0 ht hj hk0 hjd hk hsum

/-! ### C139 -/

/-- C139, full statement: the percentage is printed to the nearest hundredth. False, see
`C139_refuted`; `C139_nearest_partial` has a bound on the total, `C139_close_partial` has none. -/
def C139_statement : Prop := ∀ n total : Nat, n ≤ total → 0 < total →
  |(hundredths (percentage n total) : ℚ) - 10000 * (n / total)| ≤ 1 / 2

/-- Of a total of 764877654117 the quotient of 556333761722 is just above a half of a hundredth, and
the double nearest to it just below. -/
theorem C139_refuted : ¬ C139_statement := by
  intro h
  have h := h 556333761722 764877654117 (by norm_num) (by norm_num)
  have e : hundredths (percentage 556333761722 764877654117) = 7273 := by decide +kernel
  rw [e] at h
  norm_num [abs_le] at h

/-- C139 for any total: what is printed is never off by more than half a hundredth and a
millionth of a hundredth. -/
theorem C139_close_partial (n total : Nat) (hn : n ≤ total) (h0 : 0 < total) :
    |(hundredths (percentage n total) : ℚ) - 10000 * (n / total)| ≤ 1 / 2 + 1 / 10 ^ 6 := by
  have ht0 : (0 : ℚ) < total := by exact_mod_cast h0
  have hn0 : (0 : ℚ) ≤ n := by positivity
  have hn' : (n : ℚ) ≤ total := by exact_mod_cast hn
  have h1 := toDouble_near hn0
  have h2 := toDouble_near ht0.le
  unfold percentage
  generalize toDouble (n : ℚ) = a at *
  generalize toDouble (total : ℚ) = t at *
  rw [abs_le] at h1 h2
  have ha : 0 ≤ 100 * a := by linarith [h1.1]
  have h3 := toDouble_near ha
  generalize toDouble (100 * a) = b at *
  rw [abs_le] at h3
  have hb : 0 ≤ b := by linarith [h3.1]
  have ht : 0 < t := by linarith [h2.1]
  have hq : 0 ≤ b / t := div_nonneg hb ht.le
  have h4 := toDouble_near hq
  have hr := roundHalfEven_near (100 * toDouble (b / t))
  unfold hundredths
  generalize toDouble (b / t) = x at *
  rw [abs_le] at h4 hr ⊢
  -- the quotient before its own rounding
  have hp0 : (0 : ℚ) ≤ n / total := by positivity
  have hp1 : (n / total : ℚ) ≤ 1 := by
    rw [div_le_iff₀ ht0]
    linarith
  have hnp : (n : ℚ) = n / total * total := by field_simp
  generalize (n : ℚ) / total = p at *
  have hpt : 0 ≤ p * total := by positivity
  have hlo : p * (100 - 1 / 10 ^ 9) ≤ b / t := by
    rw [le_div_iff₀ ht]
    have e1 : p * t ≤ p * (total + total / 2 ^ 53) :=
      mul_le_mul_of_nonneg_left (by linarith [h2.2]) hp0
    nlinarith [h1.1, h3.1]
  have hhi : b / t ≤ p * (100 + 1 / 10 ^ 9) := by
    rw [div_le_iff₀ ht]
    have e1 : p * (total - total / 2 ^ 53) ≤ p * t :=
      mul_le_mul_of_nonneg_left (by linarith [h2.1]) hp0
    nlinarith [h1.2, h3.2]
  generalize b / t = q at *
  constructor
  · linarith [hr.1, h4.1]
  · linarith [hr.2, h4.2]

/-- C139: the percentage of `n` instructions of a total below 764877654117 is printed to the nearest
hundredth. -/
theorem C139_nearest_partial (n total : Nat) (hn : n ≤ total) (h0 : 0 < total)
    (ht : total < 764877654117) :
    |(hundredths (percentage n total) : ℚ) - 10000 * (n / total)| ≤ 1 / 2 := by
  have hp := percentage_quotient hn ht
  have hr := roundHalfEven_near (100 * percentage n total)
  unfold hundredths
  set h := roundHalfEven (100 * percentage n total)
  set x := percentage n total
  have ht0 : (0 : ℚ) < total := by exact_mod_cast h0
  have hti : (0 : ℤ) < total := by exact_mod_cast h0
  have hq : (10000 * (n / total) : ℚ) * total = 10000 * n := by field_simp
  rw [abs_le] at hr ⊢
  have hp' : x = toDouble (100 * ((n : ℤ) : ℚ) / ((total : ℤ) : ℚ)) := by
    rw [hp, Int.cast_natCast, Int.cast_natCast]
  constructor
  · by_contra hc
    push Not at hc
    refine not_across (s := 1) (Or.inl rfl) hti (by exact_mod_cast ht) (c := n) (m := 2 * h + 1)
      (by omega) (by exact_mod_cast hn) ?_ (d := x) ?_ hp'
    · have : (0 : ℚ) < ((20000 * n - (2 * h + 1) * total : ℤ) : ℚ) := by
        push_cast
        nlinarith
      have : 0 < (20000 * n - (2 * h + 1) * total : ℤ) := by exact_mod_cast this
      omega
    · push_cast
      linarith
  · by_contra hc
    push Not at hc
    refine not_across (s := -1) (Or.inr rfl) hti (by exact_mod_cast ht) (c := n) (m := 2 * h - 1)
      (by omega) (by exact_mod_cast hn) ?_ (d := x) ?_ hp'
    · have : ((20000 * n - (2 * h - 1) * total : ℤ) : ℚ) < 0 := by
        push_cast
        nlinarith
      have : (20000 * n - (2 * h - 1) * total : ℤ) < 0 := by exact_mod_cast this
      omega
    · push_cast
      linarith

/-- C139: 764877654117 is the least total of which a percentage is not printed to the nearest
hundredth. -/
theorem C139_least_partial : IsLeast {total : Nat | 0 < total ∧ ∃ n ≤ total,
    ¬ |(hundredths (percentage n total) : ℚ) - 10000 * (n / total)| ≤ 1 / 2} 764877654117 := by
  refine ⟨⟨by norm_num, 556333761722, by norm_num, fun h => ?_⟩, ?_⟩
  · have e : hundredths (percentage 556333761722 764877654117) = 7273 := by decide +kernel
    rw [e] at h
    norm_num [abs_le] at h
  · rintro total ⟨h0, n, hn, h⟩
    by_contra hc
    exact h (C139_nearest_partial n total hn h0 (by omega))

/-- C139 for any total: the percentage lies between 0 and 100, is 0 for none and 100 for all, and a
larger count does not have a smaller percentage. -/
theorem C139_order_partial (n m total : Nat) (hnm : n ≤ m) (hm : m ≤ total) (h0 : 0 < total) :
    0 ≤ hundredths (percentage n total) ∧ hundredths (percentage m total) ≤ 10000 ∧
    hundredths (percentage 0 total) = 0 ∧ hundredths (percentage total total) = 10000 ∧
    hundredths (percentage n total) ≤ hundredths (percentage m total) := by
  have mono : ∀ {n m : Nat}, n ≤ m →
      hundredths (percentage n total) ≤ hundredths (percentage m total) := by
    intro n m hnm
    have h1 : (0 : ℚ) ≤ toDouble n := toDouble_nonneg (by positivity)
    have h2 : toDouble n ≤ toDouble m := toDouble_mono (by positivity) (by exact_mod_cast hnm)
    have h3 : 0 ≤ toDouble (100 * toDouble n) := toDouble_nonneg (by linarith)
    have h4 : toDouble (100 * toDouble n) ≤ toDouble (100 * toDouble m) :=
      toDouble_mono (by linarith) (by linarith)
    have ht : (0 : ℚ) ≤ toDouble total := toDouble_nonneg (by positivity)
    refine roundHalfEven_mono ?_
    have := toDouble_mono (div_nonneg h3 ht) (div_le_div_of_nonneg_right h4 ht)
    unfold percentage
    linarith
  have hz : hundredths (percentage 0 total) = 0 := by
    have e : percentage 0 total = 0 := by
      unfold percentage
      rw [Nat.cast_zero, show toDouble 0 = 0 from if_pos rfl, mul_zero,
        show toDouble 0 = 0 from if_pos rfl, zero_div, show toDouble 0 = 0 from if_pos rfl]
    rw [e]
    decide +kernel
  have hf : hundredths (percentage total total) = 10000 := by
    have h1 := C139_close_partial total total (le_refl _) h0
    have ht0 : (total : ℚ) ≠ 0 := by exact_mod_cast h0.ne'
    rw [div_self ht0, abs_le] at h1
    have h2 : (9999 : ℚ) < hundredths (percentage total total) := by linarith [h1.1]
    have h3 : (hundredths (percentage total total) : ℚ) < 10001 := by linarith [h1.2]
    have h2 : 9999 < hundredths (percentage total total) := by exact_mod_cast h2
    have h3 : hundredths (percentage total total) < 10001 := by exact_mod_cast h3
    omega
  exact ⟨hz ▸ mono (Nat.zero_le n), hf ▸ mono hm, hz, hf, mono hnm⟩

/-- C139: the line of an instruction: its name, the count and the percentage in columns. -/
theorem C139_text_partial (inst : Str) (n total : Nat) (hn : n ≤ total) (h0 : 0 < total)
    (ht : total < 764877654117) :
    ∃ a b c w d h, freqText inst n total = a ++ ' ' :: b ++ ' ' :: ' ' :: c ++ ['%'] ∧
      LeftIn 8 inst a ∧ RightIn 6 (numeral 10 n) b ∧ RightIn 6 (w ++ '.' :: d) c ∧
      Decimal w (h / 100) ∧ Decimal d (h % 100) ∧ d.length = 2 ∧ c.length = 6 ∧
      |(h : ℚ) - 10000 * (n / total)| ≤ 1 / 2 := by
  obtain ⟨hnn, -⟩ := C139_order_partial n n total (le_refl n) hn h0
  obtain ⟨-, hle, -⟩ := C139_order_partial n n total (le_refl n) hn h0
  have hnear := C139_nearest_partial n total hn h0 ht
  unfold freqText
  generalize hundredths (percentage n total) = z at *
  obtain ⟨h, rfl⟩ : ∃ h : Nat, z = h := ⟨z.toNat, by omega⟩
  have hlen2 : (padLeft '0' 2 (numeral 10 (h % 100))).length = 2 := by
    have h1 := (digits_spec 10 (h % 100) (by omega)).2.2.1 2 (by omega) (by omega)
    simp only [padLeft, numeral, List.length_append, List.length_replicate, List.length_map]
    omega
  have hlen6 : (padLeft ' ' 6 (fixed2 h)).length = 6 := by
    have h1 := (digits_spec 10 (h / 100) (by omega)).2.2.1 3 (by omega) (by omega)
    have h2 : (fixed2 h).length ≤ 6 := by
      unfold fixed2
      rw [List.length_append, List.length_cons]
      simp only [Int.toNat_natCast]
      rw [hlen2, numeral, List.length_map]
      omega
    rw [padLeft, List.length_append, List.length_replicate]
    omega
  refine ⟨_, _, _, numeral 10 (h / 100), padLeft '0' 2 (numeral 10 (h % 100)), h, rfl,
    padRight_leftIn 8 inst, padLeft_rightIn 6 _, ?_, numeral_decimal _, padLeft_decimal _ _, hlen2,
    hlen6, by exact_mod_cast hnear⟩
  exact padLeft_rightIn 6 (fixed2 h)

theorem freqLines_nonzero {opts : CheckOpts} {n : Nat} {d : Dict Str Nat} {l : List CheckMsg}
    (h : freqLines opts n d = .ok l) (h0 : n = 0) :
    d.filter (fun p => !opts.unused || decide (p.2 ≠ 0)) = [] := by
  induction d generalizing l with
  | nil => rfl
  | cons p d ih =>
    obtain ⟨i, k⟩ := p
    simp only [freqLines] at h
    by_cases hc : ((opts.unused && decide (k ≠ 0)) || !opts.unused) = true
    · rw [if_pos hc, if_pos h0] at h
      cases h
    · rw [if_neg hc] at h
      have hc' : ¬ (!opts.unused || decide (k ≠ 0)) = true := by
        revert hc; cases opts.unused <;> simp
      rw [List.filter_cons, if_neg hc']
      exact ih h

theorem instructions_short : ∀ i ∈ INSTRUCTIONS, i.length ≤ 8 := by decide +kernel

/-- C139: every line of a report on less than 764877654117 instructions is of the kind described: the total is
not zero, the count is not larger, and the names fit in their column, so that the lines of counts below
a million are all 24 characters long, as is the line of the total. -/
theorem C139_report_partial (fs : FileSystem) (fuel : Nat) (opts : CheckOpts) (files : List Str)
    (msgs : List CheckMsg) (h : checkInstructions fs fuel opts files = .ok msgs) (i : Str)
    (n t : Nat) (hm : (i, n, t) ∈ freqs msgs) (ht : t < 764877654117) :
    0 < t ∧ n ≤ t ∧ i.length ≤ 8 ∧
      (t < 10 ^ 6 → (freqText i n t).length = 24 ∧ (totalText t).length = 24) := by
  obtain ⟨out, -, hno, hyes⟩ := C90_frequencies fs fuel opts files msgs h
  have hc : opts.count = true := by
    cases hc : opts.count with
    | true => rfl
    | false => rw [hno hc] at hm; cases hm
  obtain ⟨-, h2, -, -⟩ := hyes hc
  obtain ⟨hi, hn, htt, -⟩ := (h2 i n t).1 hm
  have hnt : n ≤ t := by
    rw [hn, htt]
    apply List.Sublist.length_le
    refine List.monotone_filter_right out fun s hs => ?_
    simp only [decide_eq_true_eq] at hs ⊢
    exact ⟨i, hs.2⟩
  have h0 : 0 < t := by
    rcases Nat.eq_zero_or_pos t with h0 | h0
    · exfalso
      obtain ⟨st, hck, -, hf, -⟩ := report_parts fs fuel opts files msgs h
      rw [hf, if_pos hc] at hm
      obtain ⟨p, hpm, hp⟩ := List.mem_map.1 hm
      simp only [Prod.mk.injEq] at hp
      have hst : st.instrcount = 0 := by rw [hp.2.2]; exact h0
      unfold checkInstructions at h
      split at h
      · cases h
      · rw [hck] at h
        simp only [py_bind_ok, checkReport] at h
        rw [if_pos hc] at h
        cases hl : freqLines opts st.instrcount
            (if opts.sort then freqtab st.instrtab else byName st.instrtab) with
        | error e => rw [hl] at h; cases h
        | ok l =>
          rw [freqLines_nonzero hl hst] at hpm
          cases hpm
    · exact h0
  refine ⟨h0, hnt, instructions_short i hi, fun h6 => ⟨?_, ?_⟩⟩
  · obtain ⟨a, b, c, w, d, k, he, ha, hb, -, -, -, -, hc6, -⟩ := C139_text_partial i n t hnt h0 ht
    obtain ⟨_, -, ha2, -⟩ := ha
    obtain ⟨_, -, hb2, -⟩ := hb
    have hl := (digits_spec 10 n (by omega)).2.2.1 6 (by omega) (by omega)
    have hb3 := hb2 (by rw [numeral, List.length_map]; exact hl)
    have ha3 := ha2 (instructions_short i hi)
    rw [he]
    simp only [List.length_append, List.length_cons, List.length_nil]
    omega
  · have hl := (digits_spec 10 t (by omega)).2.2.1 6 (by omega) (by omega)
    have e : padLeft ' ' 6 (fixed2 (hundredths 100)) = py "100.00" := by decide +kernel
    unfold totalText
    rw [e]
    have h1 : (padLeft ' ' 6 (numeral 10 t)).length = 6 := by
      rw [padLeft, List.length_append, List.length_replicate, numeral, List.length_map]
      omega
    simp only [List.length_append, List.length_cons, List.length_nil, h1, padRight,
      List.length_replicate]

/-- Halves are not all rounded the same way: 1 of 800 is 0.125 percent, printed as 0.12, and 3 of 800
is 0.375 percent, printed as 0.38; 3 of 20000 is 0.015 percent, printed as 0.01. -/
example : hundredths (percentage 1 800) = 12 ∧ hundredths (percentage 3 800) = 38 ∧
    hundredths (percentage 3 20000) = 1 ∧ hundredths (percentage 1 3) = 3333 := by decide +kernel

example : freqText (py "TN") 2 3 = py "TN            2   66.67%" ∧
    totalText 3 = py "Total         3  100.00%" := by decide +kernel

end H800
