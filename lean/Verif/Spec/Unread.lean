import Verif.Spec.Intersperse

/-!
Vocabulary for statements about the columns of a line that no tool looks into.
-/

namespace H800.Spec

/-- The character in a column of a line, counted from 1; behind the end of the line there are blanks. -/
def columnAt (l : Str) (i : Nat) : Char := (l.filter (· ≠ '\n'))[i - 1]?.getD ' '

/-- Two lines of the same kind that say the same in the columns the tools look into: two comments; two
lines including the same file; or two cards with the same characters in columns 1 and 8 and, but for
page, remark and log cards, 9 to 32 (the label and the operation). -/
inductive SameFront : Str → Str → Prop
  | comment (l l' : Str) : SameFront ('#' :: l) ('#' :: l')
  | include_ (l l' name : Str) : Word1 l name → Word1 l' name → SameFront ('$' :: l) ('$' :: l')
  | blank (l l' : Str) : Blank l → Blank l' → SameFront ('$' :: l) ('$' :: l')
  | card (l l' : Str) : columnAt l 1 ≠ '#' → columnAt l 1 ≠ '$' →
      (∀ i, i = 1 ∨ i = 8 ∨ ¬ PRL l ∧ 9 ≤ i ∧ i ≤ 32 → columnAt l i = columnAt l' i) → SameFront l l'

/-- The two file systems have the same files but for the columns that no tool looks into. -/
def SameFronts (fs fs' : Str → Option Str) : Prop :=
  ∀ g, (fs g = none ∧ fs' g = none) ∨
    ∃ t t', fs g = some t ∧ fs' g = some t' ∧ List.Forall₂ SameFront (readlines t) (readlines t')

end H800.Spec
