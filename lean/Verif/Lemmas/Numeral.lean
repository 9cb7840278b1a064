import Verif.Py
import Verif.Spec.Bits
import Mathlib.Tactic.Ring

/-! Numerals decode to the number they print. -/

namespace H800

open Spec

theorem ofDigits_append (b : Nat) (ds : List Nat) (d : Nat) :
    ofDigits b (ds ++ [d]) = ofDigits b ds * b + d := by
  simp [ofDigits, List.foldl_append]

theorem digitsAux_spec (b : Nat) (hb : 2 ≤ b) (fuel n : Nat) (h : n < 2 ^ fuel) (hf : 1 ≤ fuel) :
    ofDigits b (digitsAux b fuel n) = n ∧ (∀ d ∈ digitsAux b fuel n, d < b) ∧
      (∀ w, 1 ≤ w → n < b ^ w → (digitsAux b fuel n).length ≤ w) ∧ digitsAux b fuel n ≠ [] := by
  induction fuel generalizing n with
  | zero => omega
  | succ fuel ih =>
    unfold digitsAux
    by_cases hn : n < b
    · simp only [hn, if_true]
      refine ⟨by simp [ofDigits], by simpa using hn, ?_, by simp⟩
      intro w hw _; simpa using hw
    · simp only [hn, if_false]
      have hdiv : n / b < 2 ^ fuel := by
        apply Nat.div_lt_of_lt_mul
        calc n < 2 ^ (fuel + 1) := h
          _ = 2 * 2 ^ fuel := by rw [pow_succ]; ring
          _ ≤ b * 2 ^ fuel := Nat.mul_le_mul_right _ hb
      have hq : 1 ≤ n / b := Nat.div_pos (by omega) (by omega)
      have hf' : 1 ≤ fuel := by
        rcases fuel with _ | f
        · simp at hdiv; omega
        · omega
      obtain ⟨h1, h2, h3, h4⟩ := ih (n / b) hdiv hf'
      refine ⟨?_, ?_, ?_, by simp⟩
      · rw [ofDigits_append, h1]; exact Nat.div_add_mod' n b
      · intro d hd
        rcases List.mem_append.1 hd with hd | hd
        · exact h2 d hd
        · simp at hd; rw [hd]; exact Nat.mod_lt _ (by omega)
      · intro w hw hlt
        rcases w with _ | w
        · omega
        · have hw1 : 1 ≤ w := by
            rcases w with _ | w
            · simp at hlt; omega
            · omega
          have : n / b < b ^ w := by
            apply Nat.div_lt_of_lt_mul
            rw [pow_succ] at hlt; rw [mul_comm]; exact hlt
          have := h3 w hw1 this
          simp; omega

theorem digits_spec (b n : Nat) (hb : 2 ≤ b) :
    ofDigits b (digits b n) = n ∧ (∀ d ∈ digits b n, d < b) ∧
      (∀ w, 1 ≤ w → n < b ^ w → (digits b n).length ≤ w) ∧ digits b n ≠ [] := by
  apply digitsAux_spec b hb _ _ _ (by omega)
  exact Nat.lt_log2_self

theorem ofDigits_replicate_zero (b k : Nat) (ds : List Nat) :
    ofDigits b (List.replicate k 0 ++ ds) = ofDigits b ds := by
  induction k with
  | zero => simp
  | succ k ih =>
    rw [List.replicate_succ]
    simp only [ofDigits, List.cons_append, List.foldl_cons, Nat.zero_mul, Nat.zero_add] at *
    exact ih

/-- Value of a digit character. -/
theorem digitChar_toNat (d : Nat) (h : d < 10) : (digitChar d).toNat - '0'.toNat = d := by
  have : ∀ d : Fin 10, (digitChar d.1).toNat - '0'.toNat = d.1 := by decide
  exact this ⟨d, h⟩

end H800
