import Verif.Spec.Encoded
import Verif.Model.EncodedList

/-!
Encodings that have all characters of all files.
-/

namespace H800.Spec

/-- The encoding has all characters of ASCII, those of the names given, and those of all files. -/
structure EncodesAll (enc : Char → Bool) (fs : FileSystem) (files : List Str) : Prop where
  /-- ASCII -/
  ascii : ∀ c : Char, c.toNat < 128 → enc c = true
  /-- the names given -/
  names : ∀ f ∈ files, ∀ c ∈ f, enc c = true
  /-- the files -/
  texts : ∀ f text, fs f = some text → ∀ c ∈ text, enc c = true

end H800.Spec
