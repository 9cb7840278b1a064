import Verif.Spec.Cards
import Verif.Model.Tools

/-!
Vocabulary for statements about lines that carry no code.
-/

namespace H800.Spec

/-- A line without code: a comment, a page, remark or log card, or a blank line. -/
def NoCode (l : Str) : Prop := l.head? = some '#' ∨ PRL l ∨ Blank l

/-- The second list of lines is the first one with lines without code after it; a last line without
newline has got one. -/
inductive Extends : List Str → List Str → Prop
  | more (added : List Str) : (∀ l ∈ added, NoCode l) → Extends [] added
  | line (l : Str) {ls ls' : List Str} : Extends ls ls' → Extends (l :: ls) (l :: ls')
  | last (l : Str) (added : List Str) : '\n' ∉ l → (∀ a ∈ added, NoCode a) →
      Extends [l] ((l ++ ['\n']) :: added)

/-- The two file systems have the same files, those of the second one perhaps with lines without code
added at the end. -/
def SameCode (fs fs' : Str → Option Str) : Prop :=
  ∀ g, (fs g = none ∧ fs' g = none) ∨
    ∃ t t', fs g = some t ∧ fs' g = some t' ∧ Extends (readlines t) (readlines t')

/-- Not the line count of check-instructions. -/
def notLines : CheckMsg → Bool
  | .lines _ => false
  | _ => true

end H800.Spec
