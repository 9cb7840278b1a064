import Verif.Model.Tools
import Mathlib.Data.Int.Log
import Mathlib.Data.Rat.Floor

/-!
The text of the frequency lines of `tools/check-instructions.py` (lines 105, 111-113, 117-119).

A Python float is its exact value, a rational number. `toDouble` is rounding to the nearest binary64
number (ties to even) without the limits of the exponent, which the numbers here do not reach.
-/

namespace H800

/-- The nearest integer, the even one of two. -/
def roundHalfEven (q : ℚ) : ℤ :=
  if q - ⌊q⌋ < 1 / 2 then ⌊q⌋
  else if 1 / 2 < q - ⌊q⌋ then ⌊q⌋ + 1
  else if ⌊q⌋ % 2 = 0 then ⌊q⌋
  else ⌊q⌋ + 1

/-- The nearest number with 53 significant bits, for `q >= 0`. -/
def toDouble (q : ℚ) : ℚ :=
  if q = 0 then 0
  else roundHalfEven (q / 2 ^ (Int.log 2 q - 52)) * 2 ^ (Int.log 2 q - 52)

/-- check-instructions.py 113, 119: `100 * float(n)/float(total)`, for a total that is not zero. -/
def percentage (n total : Nat) : ℚ :=
  toDouble (toDouble (100 * toDouble n) / toDouble total)

/-- `'%.2f' % x` in hundredths: the exact value rounded to two decimals, ties to even. -/
def hundredths (x : ℚ) : ℤ := roundHalfEven (100 * x)

/-- `'%.2f'` of a number of hundredths that is not negative. -/
def fixed2 (h : ℤ) : Str :=
  numeral 10 (h.toNat / 100) ++ '.' :: padLeft '0' 2 (numeral 10 (h.toNat % 100))

/-- check-instructions.py 111-113, 117-119: `"%-8s %6d  %6.2f%%"`. -/
def freqText (inst : Str) (n total : Nat) : Str :=
  padRight 8 inst ++ ' ' :: padLeft ' ' 6 (numeral 10 n) ++
    ' ' :: ' ' :: padLeft ' ' 6 (fixed2 (hundredths (percentage n total))) ++ ['%']

/-- check-instructions.py 105: the line of the total. -/
def totalText (instrcount : Nat) : Str :=
  padRight 8 (py "Total") ++ ' ' :: padLeft ' ' 6 (numeral 10 instrcount) ++
    ' ' :: ' ' :: padLeft ' ' 6 (fixed2 (hundredths 100)) ++ ['%']

end H800
