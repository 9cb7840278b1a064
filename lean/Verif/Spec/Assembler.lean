import Verif.Model.Assembler

/-!
Vocabulary for statements about the assembler's record resolution.
-/

namespace H800.Spec

/-- The records with a symbol left undefined. -/
def incomplete (rs : List PRecord) : List PRecord := rs.filter fun r => r.parseable && !r.complete

/-- The records replaced as the code does: every parseable one by `cur`. -/
def replaced (cur : Option PRecord) (rs : List PRecord) : List (Option PRecord) :=
  rs.map fun r => if r.parseable then cur else some r

end H800.Spec
