import Verif.Lemmas.Cards
import Verif.Lemmas.ListingTool
import Verif.Lemmas.Numeral
import Verif.Spec.Tools

/-!
Lemmas on the scripts that generate line and page numbers.
-/

namespace H800

open Spec

/-! ### Numerals -/

/-- A decimal digit. -/
def IsDigit (c : Char) : Prop := '0'.toNat ≤ c.toNat ∧ c.toNat ≤ '9'.toNat

theorem digitVal_digit {c : Char} (h : IsDigit c) : digitVal c = some (c.toNat - '0'.toNat) := by
  have h1 : (48 : Nat) ≤ c.toNat := h.1
  have h2 : c.toNat ≤ 57 := h.2
  simp [digitVal, ZEROS, h1, h2]

theorem digit_ne {c : Char} (h : IsDigit c) {d : Char} (hd : d.toNat < 48 ∨ 57 < d.toNat) :
    c ≠ d := by
  have h1 : (48 : Nat) ≤ c.toNat := h.1
  have h2 : c.toNat ≤ 57 := h.2
  rintro rfl; omega

theorem digit_not_space {c : Char} (h : IsDigit c) : isSpace c = false := by
  have h1 : (48 : Nat) ≤ c.toNat := h.1
  have h2 : c.toNat ≤ 57 := h.2
  unfold isSpace
  simp
  omega

theorem pyDigits_cons {acc : Nat} {c : Char} (h : IsDigit c) (s : Str) :
    pyDigits acc (c :: s) = pyDigits (10 * acc + (c.toNat - '0'.toNat)) s := by
  have hc : c ≠ '_' := digit_ne h (by decide)
  rw [pyDigits]
  · rw [digitVal_digit h]
  · intro c1 s1 e; exact absurd e hc

theorem pyDigits_digits {s : Str} (h : ∀ c ∈ s, IsDigit c) (acc : Nat) :
    pyDigits acc s =
      some ((s.map fun c => c.toNat - '0'.toNat).foldl (fun acc d => acc * 10 + d) acc) := by
  induction s generalizing acc with
  | nil => rfl
  | cons c s ih =>
    rw [pyDigits_cons (h c List.mem_cons_self), ih fun x hx => h x (List.mem_cons_of_mem _ hx)]
    simp [Nat.mul_comm]

theorem pyNat_decimal {s : Str} {n : Nat} (h : Decimal s n) : pyNat s = some n := by
  obtain ⟨h0, h1, rfl⟩ := h
  cases s with
  | nil => exact absurd rfl h0
  | cons c s =>
    rw [pyNat, digitVal_digit (h1 c List.mem_cons_self)]
    simp only
    rw [pyDigits_digits fun x hx => h1 x (List.mem_cons_of_mem _ hx)]
    simp [ofDigits]

theorem decimal_trimmed {s : Str} {n : Nat} (h : Decimal s n) : Trimmed s := by
  refine ⟨fun c hc => digit_not_space (h.2.1 c ?_), fun c hc => digit_not_space (h.2.1 c ?_)⟩
  · exact List.mem_of_mem_head? hc
  · exact List.mem_of_mem_getLast? hc

theorem signed_trimmed {s : Str} {n : Int} (h : Signed s n) : Trimmed s := by
  rcases h with ⟨-, h⟩ | ⟨-, t, rfl, h⟩
  · exact decimal_trimmed h
  · refine ⟨fun c hc => ?_, fun c hc => ?_⟩
    · simp at hc; subst hc; decide
    · rcases List.mem_cons.1 (List.mem_of_mem_getLast? hc) with rfl | hm
      · decide
      · exact digit_not_space (h.2.1 c hm)

theorem strip_trimmed {s : Str} (h : Trimmed s) : strip s = s :=
  stripped_iff.1 ⟨h, [], [], blank_nil, blank_nil, by simp⟩

theorem intSpace_space {c : Char} (h : intSpace c = true) : isSpace c = true := by
  unfold intSpace at h
  exact (Bool.and_eq_true _ _ ▸ h).1

theorem intStrip_trimmed {s : Str} (h : Trimmed s) : intStrip s = s := by
  have key : ∀ c, isSpace c = false → intSpace c = false := by
    intro c hc
    unfold intSpace
    rw [hc]
    rfl
  unfold intStrip
  rw [dropWhile_of_head fun c hc => key c (h.1 c hc), dropWhile_of_head, List.reverse_reverse]
  intro c hc
  rw [List.head?_reverse] at hc
  exact key c (h.2 c hc)

theorem pyInt_signed {s : Str} {n : Int} (h : Signed s n) : pyInt s = .ok n := by
  unfold pyInt
  rw [intStrip_trimmed (signed_trimmed h)]
  rcases h with ⟨h0, h⟩ | ⟨h0, t, rfl, h⟩
  · have hn := pyNat_decimal h
    have hd := h.2.1
    cases s with
    | nil => exact absurd rfl h.1
    | cons c s =>
      have hc := hd c List.mem_cons_self
      have h1 : c ≠ '-' := digit_ne hc (by decide)
      have h2 : c ≠ '+' := digit_ne hc (by decide)
      split
      · rename_i e; simp only [List.cons.injEq] at e; exact absurd e.1 h1
      · rename_i e; simp only [List.cons.injEq] at e; exact absurd e.1 h2
      · rw [hn]; simp only; congr 1; omega
  · simp only
    rw [pyNat_decimal h]
    simp only
    congr 1; omega

theorem decimal_lt {s : Str} {n : Nat} (h : Decimal s n) : n < 10 ^ s.length := by
  obtain ⟨-, h1, rfl⟩ := h
  induction s using List.reverseRecOn with
  | nil => simp [ofDigits]
  | append_singleton s c ih =>
    have hc := h1 c (by simp)
    have := ih fun x hx => h1 x (by simp [hx])
    have h2 : c.toNat ≤ 57 := hc.2
    rw [List.map_append, List.map_singleton, ofDigits_append]
    have h48 : '0'.toNat = 48 := rfl
    simp only [List.length_append, List.length_singleton, pow_succ]
    omega

theorem digitChar_digit {d : Nat} (h : d < 10) : IsDigit (digitChar d) := by
  have : ∀ d : Fin 10, '0'.toNat ≤ (digitChar d.1).toNat ∧ (digitChar d.1).toNat ≤ '9'.toNat := by
    decide
  exact this ⟨d, h⟩

theorem numeral_decimal (n : Nat) : Decimal (numeral 10 n) n := by
  obtain ⟨h1, h2, -, h4⟩ := digits_spec 10 n (by omega)
  refine ⟨by simpa [numeral] using h4, ?_, ?_⟩
  · intro c hc
    obtain ⟨d, hd, rfl⟩ := List.mem_map.1 hc
    exact digitChar_digit (h2 d hd)
  · unfold numeral
    rw [List.map_map]
    have : (digits 10 n).map ((fun c => c.toNat - '0'.toNat) ∘ digitChar) = digits 10 n := by
      conv_rhs => rw [← List.map_id (digits 10 n)]
      exact List.map_congr_left fun d hd => digitChar_toNat d (h2 d hd)
    rw [this, h1]

theorem numeral_length {n w : Nat} (hw : 1 ≤ w) (h : n < 10 ^ w) : (numeral 10 n).length ≤ w := by
  unfold numeral
  rw [List.length_map]
  exact (digits_spec 10 n (by omega)).2.2.1 w hw h

theorem padLeft_decimal (w n : Nat) : Decimal (padLeft '0' w (numeral 10 n)) n := by
  obtain ⟨h0, h1, h2⟩ := numeral_decimal n
  refine ⟨by simp [padLeft, h0], ?_, ?_⟩
  · intro c hc
    rcases List.mem_append.1 hc with h | h
    · rw [(List.mem_replicate.1 h).2]; decide
    · exact h1 c h
  · unfold padLeft
    rw [List.map_append, List.map_replicate]
    exact (ofDigits_replicate_zero 10 _ _).trans h2

theorem zeroPad_signed (w : Nat) (n : Int) : Signed (zeroPad w n) n := by
  unfold zeroPad
  split
  · rename_i h
    exact Or.inr ⟨h, _, rfl, padLeft_decimal _ _⟩
  · rename_i h
    refine Or.inl ⟨by omega, ?_⟩
    have : n.toNat = n.natAbs := by omega
    rw [this]
    exact padLeft_decimal _ _

/-- The number an argument stands for is not longer than the argument. -/
theorem pyStr_length {s : Str} {n : Int} (h : Signed s n) : (pyStr n).length ≤ s.length := by
  unfold pyStr
  rcases h with ⟨h0, h⟩ | ⟨h0, t, rfl, h⟩
  · rw [if_neg (by omega)]
    have h1 : 1 ≤ s.length := List.length_pos_iff.2 h.1
    refine numeral_length h1 ?_
    have := decimal_lt h
    have e : n.toNat = n.natAbs := by omega
    omega
  · rw [if_pos h0]
    have h1 : 1 ≤ t.length := List.length_pos_iff.2 h.1
    have := numeral_length h1 (decimal_lt h)
    simp only [List.length_cons]; omega

theorem signed_unique {s : Str} {n m : Int} (h : Signed s n) (h' : Signed s m) : n = m := by
  have := (pyInt_signed h).symm.trans (pyInt_signed h')
  exact Except.ok.inj this

theorem blank_replicate (k : Nat) : Blank (List.replicate k ' ') := by
  intro c hc; rw [(List.mem_replicate.1 hc).2]; decide

theorem shows_strip {l : Str} {n : Int} (h : Shows l n) : Signed (strip l) n := by
  obtain ⟨i, j, s, rfl, hs⟩ := h
  rw [strip_of_decomp (blank_replicate i) (blank_replicate j) (signed_trimmed hs)]
  exact hs

theorem shows_unique {l : Str} {n m : Int} (h : Shows l n) (h' : Shows l m) : n = m :=
  signed_unique (shows_strip h) (shows_strip h')

/-! ### genlines -/

theorem genLine_shows (w : Nat) (sc ec n : Int) : Shows (genLine w sc ec n) n :=
  ⟨_, _, _, rfl, zeroPad_signed w n⟩

theorem rangeStep_pos {start stop step : Int} (h : 0 < step) :
    ∃ l, pyRangeStep start stop step = .ok l ∧ l.Pairwise (· < ·) ∧
      ∀ n, n ∈ l ↔ step ∣ n - start ∧ start ≤ n ∧ n < stop := by
  unfold pyRangeStep
  rw [if_neg (by omega)]
  simp only [if_pos h]
  refine ⟨_, rfl, ?_, ?_⟩
  · rw [List.pairwise_map]
    refine List.pairwise_lt_range.imp ?_
    intro a b hab
    have : (a : Int) * step < b * step := by
      apply mul_lt_mul_of_pos_right _ h
      exact_mod_cast hab
    omega
  · intro n
    simp only [List.mem_map, List.mem_range]
    constructor
    · rintro ⟨k, hk, rfl⟩
      have hk' : (k : Int) < (stop - start + step - 1) / step := by omega
      have h1 : ((k : Int) + 1) * step ≤ stop - start + step - 1 := by
        have := (Int.le_ediv_iff_mul_le h).1 (show (k : Int) + 1 ≤ (stop - start + step - 1) / step by omega)
        exact this
      have h2 : 0 ≤ (k : Int) * step := mul_nonneg (by omega) (by omega)
      rw [add_mul] at h1
      refine ⟨⟨k, by ring⟩, by omega, by omega⟩
    · rintro ⟨⟨k, hk⟩, h1, h2⟩
      have hk0 : 0 ≤ k := by
        by_contra hneg
        have : step * k < 0 := mul_neg_of_pos_of_neg h (by omega)
        omega
      refine ⟨k.toNat, ?_, ?_⟩
      · have : k + 1 ≤ (stop - start + step - 1) / step := by
          rw [Int.le_ediv_iff_mul_le h]
          have : (k + 1) * step = step * k + step := by ring
          omega
        omega
      · rw [Int.toNat_of_nonneg hk0, mul_comm k step]; omega

theorem rangeStep_neg {start stop step : Int} (h : step < 0) :
    ∃ l, pyRangeStep start stop step = .ok l ∧ l.Pairwise (· > ·) ∧
      ∀ n, n ∈ l ↔ step ∣ n - start ∧ n ≤ start ∧ stop < n := by
  obtain ⟨l, hl, hp, hm⟩ := rangeStep_pos (start := -start) (stop := -stop) (step := -step) (by omega)
  refine ⟨l.map (fun x => -x), ?_, ?_, ?_⟩
  · unfold pyRangeStep at hl ⊢
    rw [if_neg (by omega)] at hl ⊢
    simp only [if_pos (show -step > 0 by omega), Except.ok.injEq] at hl
    simp only [if_neg (show ¬ step > 0 by omega), ← hl, List.map_map]
    congr 1
    have e : start - stop + -step - 1 = -stop - -start + -step - 1 := by ring
    rw [e]
    refine List.map_congr_left fun k _ => ?_
    simp only [Function.comp]
    ring
  · rw [List.pairwise_map]
    exact hp.imp fun {a b} hab => by omega
  · intro n
    rw [List.mem_map]
    constructor
    · rintro ⟨x, hx, rfl⟩
      obtain ⟨⟨k, hk⟩, h1, h2⟩ := (hm x).1 hx
      exact ⟨⟨k, by rw [neg_mul] at hk; omega⟩, by omega, by omega⟩
    · rintro ⟨⟨k, hk⟩, h1, h2⟩
      exact ⟨-n, (hm _).2 ⟨⟨k, by rw [neg_mul]; omega⟩, by omega, by omega⟩, by ring⟩

theorem intArg_opt {args : List Str} {i : Nat} {d v : Int} (a b : Str) (h : OptArg args i d v) :
    intArg (a :: b :: args) (i + 2) d = .ok v := by
  unfold intArg
  simp only [List.getElem?_cons_succ]
  rcases h with ⟨h, rfl⟩ | ⟨s, h, hs⟩
  · rw [h]
  · rw [h]; exact pyInt_signed hs

/-- What genlines prints for well-formed arguments. -/
theorem genlines_eq {a0 a1 : Str} {rest : List Str} {start end_ step sc ec : Int}
    (h0 : Signed a0 start) (h1 : Signed a1 end_) (l0 : a0.length ≤ 6) (l1 : a1.length ≤ 6)
    (hs : OptArg rest 0 1 step) (hsc : OptArg rest 1 2 sc) (hec : OptArg rest 2 7 ec) :
    genlines (a0 :: a1 :: rest) =
      (pyRangeStep start (end_ + step) step).map fun nums =>
        nums.map (genLine (max 4 a1.length) sc ec) := by
  have hw : genWidth (pyStr end_).length a1.length = max 4 a1.length := by
    have := pyStr_length h1
    unfold genWidth
    simp only
    split <;> split <;> omega
  unfold genlines
  simp only
  rw [if_neg (by omega), if_neg (by omega), pyInt_signed h0, py_bind_ok, pyInt_signed h1, py_bind_ok]
  rw [if_neg (by have := pyStr_length h1; omega)]
  rw [intArg_opt a0 a1 hs, py_bind_ok, intArg_opt a0 a1 hsc, py_bind_ok, intArg_opt a0 a1 hec,
    py_bind_ok, hw]
  cases pyRangeStep start (end_ + step) step <;> rfl

end H800
