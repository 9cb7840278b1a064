import Verif.Spec.Crash
import Verif.Model.Encoded

/-!
Characters that an encoding has.
-/

namespace H800.Spec

/-- The encoding has all characters of ASCII, those of the names given, and those of all files that a run
may read. -/
structure CanEncode (enc : Char → Bool) (fs : FileSystem) (files : List Str) : Prop where
  /-- ASCII -/
  ascii : ∀ c : Char, c.toNat < 128 → enc c = true
  /-- the names given -/
  names : ∀ f ∈ files, ∀ c ∈ f, enc c = true
  /-- the files given and included -/
  texts : ∀ f, Reached fs files f → ∀ text, fs f = some text → ∀ c ∈ text, enc c = true

/-- The line has a character that the encoding lacks. -/
def Lacks (enc : Char → Bool) (l : Str) : Prop := ∃ c ∈ l, enc c = false

end H800.Spec
