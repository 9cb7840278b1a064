import Verif.Spec.IntText

/-!
The comments that genpages goes by.
-/

namespace H800.Spec

/-- The pages a word tells: a number, or two numbers with a dash between them; a second dash and what
comes after it do not count. -/
def PageWord (w : Str) (a b : Nat) : Prop :=
  ('-' ∉ w ∧ IntText w a ∧ b = a) ∨
  ∃ p q r, w = p ++ '-' :: q ∧ '-' ∉ p ∧ BeforeFirst '-' q r ∧ IntText p a ∧ IntText r b

/-- A page comment. -/
def PageComment (line : Str) (a b : Nat) : Prop :=
  ∃ rest w, line = py "# Pages: " ++ rest ∧ Word1 rest w ∧ PageWord w a b

/-- The last page comment tells these pages. -/
def LastPages (lines : List Str) (a b : Nat) : Prop :=
  ∃ pre line post, lines = pre ++ line :: post ∧ PageComment line a b ∧
    ∀ l ∈ post, ¬ Begins (py "# Pages: ") l

/-- What begins as a page comment is one; and if there is no log card, the first line that begins as a
file name comment has a name. -/
def SoundComments (lines : List Str) : Prop :=
  (∀ l ∈ lines, Begins (py "# Pages: ") l → ∃ a b, PageComment l a b) ∧
  ((∀ l ∈ lines, l.head? ≠ some 'L') → (∃ l ∈ lines, Begins (py "# Filename: ") l) →
    ∃ name, FileComment lines name)

/-- genpages has nothing to go by: no file; or comments that are sound, but no log section or pages in
the wrong order. -/
def PagesMisuse (fs : Str → Option Str) (args : List Str) : Prop :=
  args[0]? = none ∨ ∃ file, args[0]? = some file ∧
    (fs file = none ∨ ∃ text, fs file = some text ∧ SoundComments (readlines text) ∧
      ((¬ ∃ sec c8, LogName (readlines text) sec c8) ∨
        ∃ a b, LastPages (readlines text) a b ∧ b < a))

/-- genpages has all it needs: sound comments, a log section, and pages in order. -/
def PagesWell (fs : Str → Option Str) (args : List Str) : Prop :=
  ∃ file text sec c8 a b, args[0]? = some file ∧ fs file = some text ∧
    SoundComments (readlines text) ∧ LogName (readlines text) sec c8 ∧
    LastPages (readlines text) a b ∧ a ≤ b

end H800.Spec
