import Verif.Spec.Unread

/-!
Vocabulary for statements about where in its field a tag or an operation is punched (manual of the
assembly language, `docs/argus/ARGUS_Manual_of_Assembly_Language.md` 361 and 435: "Tags may be punched
anywhere in the location field; spaces are ignored"; 701: "Information written either in the command
code field, or in any address field may be punched anywhere in the indicated card field; spaces in these
fields are ignored when assembling machine instructions").
-/

namespace H800.Spec

/-- What is punched in the columns from `a` to `b` of a line, blanks behind its end included. -/
def holes (l : Str) (a b : Nat) : Str := (List.range (b + 1 - a)).map fun j => columnAt l (a + j)

/-- Only spaces. -/
def Spaces (s : Str) : Prop := ∀ c ∈ s, c = ' '

/-- The same text with other numbers of spaces before and behind it. -/
def Shifted (s s' : Str) : Prop :=
  ∃ o a b a' b', Spaces a ∧ Spaces b ∧ Spaces a' ∧ Spaces b' ∧ s = a ++ o ++ b ∧ s' = a' ++ o ++ b'

/-- Two lines of the same kind in which the same is punched: two comments; two lines including the same
file; or two cards with the same characters in columns 1 and 8 and, but for page, remark and log cards,
the same label but for spaces anywhere in columns 9 to 19, and the same operation anywhere in columns 20
to 32. -/
inductive SamePunch : Str → Str → Prop
  | comment (l l' : Str) : SamePunch ('#' :: l) ('#' :: l')
  | include_ (l l' name : Str) : Word1 l name → Word1 l' name → SamePunch ('$' :: l) ('$' :: l')
  | blank (l l' : Str) : Blank l → Blank l' → SamePunch ('$' :: l) ('$' :: l')
  | card (l l' : Str) : columnAt l 1 ≠ '#' → columnAt l 1 ≠ '$' →
      columnAt l 1 = columnAt l' 1 → columnAt l 8 = columnAt l' 8 →
      (¬ PRL l → (holes l 9 19).filter (· ≠ ' ') = (holes l' 9 19).filter (· ≠ ' ') ∧
        Shifted (holes l 20 32) (holes l' 20 32)) → SamePunch l l'

/-- The two file systems have the same files but for the places of labels and operations in their
fields, spaces in labels, and the columns that no tool looks into. -/
def SamePunches (fs fs' : Str → Option Str) : Prop :=
  ∀ g, (fs g = none ∧ fs' g = none) ∨
    ∃ t t', fs g = some t ∧ fs' g = some t' ∧ List.Forall₂ SamePunch (readlines t) (readlines t')

end H800.Spec
