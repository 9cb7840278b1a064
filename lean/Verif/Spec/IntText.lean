import Verif.Spec.Tools

/-!
Texts that Python's `int` accepts, and the arguments of genlines.
-/

namespace H800.Spec

/-- The digits zero of Unicode 11, one for each script that has decimal digits. -/
def ZERO_DIGITS : List Char :=
  ['0', '٠', '۰', '߀', '०', '০', '੦', '૦', '୦', '௦', '౦', '೦', '൦', '෦', '๐', '໐',
   '༠', '၀', '႐', '០', '᠐', '᥆', '᧐', '᪀', '᪐', '᭐', '᮰', '᱀', '᱐', '꘠', '꣐', '꤀',
   '꧐', '꧰', '꩐', '꯰', '０', '𐒠', '𐴰', '𑁦', '𑃰', '𑄶', '𑇐', '𑋰', '𑑐', '𑓐', '𑙐', '𑛀',
   '𑜰', '𑣠', '𑱐', '𑵐', '𑶠', '𖩠', '𖭐', '𝟎', '𝟘', '𝟢', '𝟬', '𝟶', '𞥐']

/-- The value of a decimal digit: its distance from the zero of its script. -/
def DigitIs (c : Char) (d : Nat) : Prop := d < 10 ∧ ∃ z ∈ ZERO_DIGITS, c.toNat = z.toNat + d

/-- White space, and none of the four separators of ASCII. -/
def IntBlank (s : Str) : Prop :=
  Blank s ∧ ∀ c ∈ s, c ∉ ['\x1c', '\x1d', '\x1e', '\x1f']

/-- Decimal digits, with single underscores between them where wanted, and their value. -/
inductive Digits : Str → Nat → Prop
  | one {c : Char} {d : Nat} : DigitIs c d → Digits [c] d
  | more {s : Str} {c : Char} {v d : Nat} : Digits s v → DigitIs c d → Digits (s ++ [c]) (10 * v + d)
  | under {s : Str} {c : Char} {v d : Nat} : Digits s v → DigitIs c d →
      Digits (s ++ ['_', c]) (10 * v + d)

/-- A whole number: digits, perhaps with a sign before them, and white space around them. -/
def IntText (s : Str) (n : Int) : Prop :=
  ∃ a sign t b v, IntBlank a ∧ IntBlank b ∧ s = a ++ (sign ++ t) ++ b ∧ Digits t v ∧
    ((sign = [] ∨ sign = ['+']) ∧ n = v ∨ sign = ['-'] ∧ n = -(v : Int))

/-- An optional argument that is a whole number. -/
def OptInt (args : List Str) (i : Nat) (default v : Int) : Prop :=
  (args[i]? = none ∧ v = default) ∨ ∃ s, args[i]? = some s ∧ IntText s v

/-- The shortest numeral of the number, zeros being allowed after the sign, with at least `w`
characters. -/
def ZeroFilled (w : Nat) (n : Int) (s : Str) : Prop :=
  Signed s n ∧ w ≤ s.length ∧ ∀ t, Signed t n → w ≤ t.length → s.length ≤ t.length

/-- The line of genlines for a number: `startcol - 1` blanks, the number in `w` characters, and blanks
up to column `endcol + 1`; no blanks where that is negative. -/
def NumberLine (w : Nat) (startcol endcol n : Int) (line : Str) : Prop :=
  ∃ s, ZeroFilled w n s ∧ line = List.replicate (startcol - 1).toNat ' ' ++ s ++
    List.replicate (endcol + 2 - startcol - w).toNat ' '

/-- Numbers from `start` in steps of `step`, before `stop`. -/
def Steps (start stop step : Int) (nums : List Int) : Prop :=
  (0 < step → nums.Pairwise (· < ·) ∧ ∀ n, n ∈ nums ↔ step ∣ n - start ∧ start ≤ n ∧ n < stop) ∧
  (step < 0 → nums.Pairwise (· > ·) ∧ ∀ n, n ∈ nums ↔ step ∣ n - start ∧ n ≤ start ∧ stop < n)

/-- Arguments of genlines that are of no use: fewer than two, or one of the first two too long. -/
def LinesMisuse (args : List Str) : Prop := args.length < 2 ∨ ∃ a ∈ args.take 2, 6 < a.length

/-- The first five arguments of genlines are whole numbers, as far as they are given, and the step is
not 0. -/
def LinesArgs (args : List Str) (start stop step startcol endcol : Int) : Prop :=
  (∃ s, args[0]? = some s ∧ IntText s start) ∧ (∃ s, args[1]? = some s ∧ IntText s stop) ∧
    OptInt args 2 1 step ∧ OptInt args 3 2 startcol ∧ OptInt args 4 7 endcol ∧ step ≠ 0

end H800.Spec
