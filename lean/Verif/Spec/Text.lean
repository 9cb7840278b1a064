import Verif.Spec.Tools

/-!
What is meant by white space, the lines of a text, the order of strings, the numeral of a number and
the parts of a text between separators. The claims use these notions; here they are told without the
functions that compute them.
-/

namespace H800.Spec

/-- The characters that Python takes as white space, by their code points: in ASCII tab, newline,
vertical tab, form feed, carriage return, the four separators and the blank; then next line, the no-break
blank, the Ogham mark, the blanks of various widths, and the line and paragraph separators. -/
def whiteSpace : List Nat :=
  [9, 10, 11, 12, 13, 28, 29, 30, 31, 32, 0x85, 0xA0, 0x1680, 0x2000, 0x2001, 0x2002, 0x2003, 0x2004,
    0x2005, 0x2006, 0x2007, 0x2008, 0x2009, 0x200A, 0x2028, 0x2029, 0x202F, 0x205F, 0x3000]

/-- The lines of a text, with their newlines; the last one may have none. -/
inductive LinesOf : Str → List Str → Prop
  | nil : LinesOf [] []
  | last {l : Str} : l ≠ [] → '\n' ∉ l → LinesOf l [l]
  | line {l text : Str} {ls : List Str} : '\n' ∉ l → LinesOf text ls →
      LinesOf (l ++ '\n' :: text) ((l ++ ['\n']) :: ls)

/-- The first string is the other one or comes before it: it begins it, or it has the smaller code
point where they first differ. -/
def NotAfter (a b : Str) : Prop :=
  (∃ r, b = a ++ r) ∨ ∃ p x y r s, a = p ++ x :: r ∧ b = p ++ y :: s ∧ x.toNat < y.toNat

/-- The decimal numeral of a number: no zero stands in front of another digit. -/
def PlainDecimal (n : Nat) (s : Str) : Prop :=
  Decimal s n ∧ ∀ t, s = '0' :: t → t = []

/-- The parts of a text between the separators. -/
inductive Parts (c : Char) : Str → List Str → Prop
  | last {p : Str} : c ∉ p → Parts c p [p]
  | part {p s : Str} {ps : List Str} : c ∉ p → Parts c s ps → Parts c (p ++ c :: s) (p :: ps)

end H800.Spec
