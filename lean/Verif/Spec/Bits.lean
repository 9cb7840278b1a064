import Mathlib.Data.Int.Basic

/-!
Vocabulary for the bit-field properties. Nothing here refers to the model of the code: bits are
read off by division, as in the textbook definition of a binary numeral.
-/

namespace H800.Spec

/-- Bit number `k` (weight `2^k`) of `v`, as 0 or 1. -/
def bitOf (v : Int) (k : Nat) : Int := v / 2 ^ k % 2

/-- The documented meaning of an index: the exponent of the weight of the bit that index `i`
names in a `W`-bit field, as a function of the four numbering schemes (0: LSB is bit 0, 1: LSB is
bit 1, 2: MSB is bit 0, 3: MSB is bit 1). -/
def weightExp (scheme : Nat) (W : Int) (i : Int) : Int :=
  match scheme with
  | 0 => i
  | 1 => i - 1
  | 2 => W - 1 - i
  | _ => W - i

/-- `v` is a `W`-bit unsigned number. -/
def Fits (W : Nat) (v : Int) : Prop := 0 ≤ v ∧ v < 2 ^ W

instance (W : Nat) (v : Int) : Decidable (Fits W v) := inferInstanceAs (Decidable (_ ∧ _))

/-- `v'` differs from `v` in no bit outside positions `lo, ..., lo + n - 1`. -/
def SameOutside (lo n : Nat) (v v' : Int) : Prop :=
  ∀ k, ¬ (lo ≤ k ∧ k < lo + n) → bitOf v' k = bitOf v k

/-- The bits `lo, ..., lo + n - 1` of `v` all equal `x`. -/
def AllBits (lo n : Nat) (v x : Int) : Prop := ∀ k, lo ≤ k → k < lo + n → bitOf v k = x

/-- The value of a numeral in base `b`, most significant digit first. -/
def ofDigits (b : Nat) (ds : List Nat) : Nat := ds.foldl (fun acc d => acc * b + d) 0

end H800.Spec
