import Verif.Spec.Bits
import Verif.Py

/-! Octal numerals as printed for registers and memory words. -/

namespace H800.Spec

/-- The value of an octal digit. -/
def octDigit (c : Char) : Nat := c.toNat - '0'.toNat

/-- `s` is `0o` and the octal numeral of `v`, filled up with zeros to `w` digits and not longer than
needed otherwise. -/
def Octal (w : Nat) (v : Int) (s : Str) : Prop :=
  ∃ ds : Str, s = '0' :: 'o' :: ds ∧ w ≤ ds.length ∧ (∀ n, w ≤ n → v < 8 ^ n → ds.length ≤ n) ∧
    (∀ c ∈ ds, c ∈ py "01234567") ∧ (ofDigits 8 (ds.map octDigit) : Int) = v

/-- Numerals, each followed by a blank. -/
def row (cells : List Str) : Str := (cells.map (· ++ [' '])).flatten

end H800.Spec
