import Verif.Spec.Tools
import Verif.Spec.Manual
import Verif.Spec.Registers

/-!
Rules of the ARGUS manual of assembly language (docs/argus/ARGUS_Manual_of_Assembly_Language.md) about
the fields of a card, copied from there and not from the code. The cards of the source files have the
eleven columns 9-19 for the location field, the thirteen columns 20-32 for the command code field and
fourteen for every address (h800/arguscard.py 14); these are columns 1-10, 11-23, 24-37, 38-51 and 52-65
of the manual (359-375).
-/

namespace H800.Spec

/-- Manual 363-367: the command code group is in the columns of the field but the last, which names the
counter that gives the next instruction; 701: spaces are ignored. The operation code is the part of the
group before the first comma. -/
def ManualOp (s : Src) (m : Str) : Prop :=
  ¬ PRL s.text ∧ m ≠ [] ∧ BeforeFirst ',' ((columns s.text 20 32).filter fun c => ¬ isSpace c) m

/-- The operation code is written without gap. -/
def Unbroken (s : Src) (m : Str) : Prop :=
  ∃ a r, columns s.text 20 32 = a ++ m ++ r ∧ Blank a ∧ (Blank r ∨ ∃ b r', Blank b ∧ r = b ++ ',' :: r')

/-- The last column of the command code field has a character: it names the counter. -/
def Designated (s : Src) : Prop := ∃ c ∈ columns s.text 32 33, isSpace c = false

/-- The command code field has a gap before any comma: spaces between two characters. -/
def Gap (s : Src) : Prop :=
  ∃ x y g z w, columns s.text 20 33 = x ++ y :: (g ++ z :: w) ∧ ',' ∉ x ∧ y ≠ ',' ∧ z ≠ ',' ∧
    isSpace y = false ∧ isSpace z = false ∧ g ≠ [] ∧ Blank g

/-- check-instructions, run with any options, reads the lines `out` and prints `msgs`. -/
def CheckRun (out : List Src) (msgs : List CheckMsg) : Prop :=
  ∃ fs fuel opts files, Sources fs files out ∧ checkInstructions fs fuel opts files = .ok msgs

/-- Among the messages is one that the line, which it names by file and number, has an invalid
instruction. -/
def ReportedIn (msgs : List CheckMsg) (s : Src) : Prop :=
  ∃ c, CheckMsg.invalid c ∈ msgs ∧ c.file = some s.file ∧ c.line = s.num

/-- Manual 733: the instructions that, with a generated mask, must have an `A` or a `D` appended to the
operation code. -/
def ambiguousFields : List Str :=
  [py "WA", py "WD", py "HA", py "TS", py "TX", py "SM", py "CP"]

/-- The operation codes formed in that way. -/
def threeLetter : List Str := ambiguousFields.flatMap fun m => [m ++ py "A", m ++ py "D"]

/-- An operation code that the manual or the notes allow. -/
def Allowed (m : Str) : Prop := Documented m ∨ m ∈ threeLetter

/-- Manual 413-433: the codes of characters that must not be in a symbolic tag. -/
def tagForbidden : List Nat :=
  [0b010000, 0b100000, 0b111011, 0b011011, 0b101100, 0b110001, 0b001100, 0b101101, 0b011010, 0b110000,
   0b111111]

/-- A character of a symbolic tag: a character of Table I that is not forbidden. -/
def TagChar (x : Char) : Prop :=
  x ≠ ' ' ∧ x ≠ '\n' ∧ ∃ c < 64, c ∉ tagForbidden ∧ tableI[c]? = some x

instance (x : Char) : Decidable (TagChar x) := by unfold TagChar; infer_instance

/-- Manual 413: a symbolic tag is a group of up to eight alphanumeric characters, of which at least one
must be non-numeric. -/
def SymTag (t : Str) : Prop :=
  t.length ≤ 8 ∧ (∀ x ∈ t, TagChar x) ∧ ∃ x ∈ t, ¬ ('0' ≤ x ∧ x ≤ '9')

instance (t : Str) : Decidable (SymTag t) := by unfold SymTag; infer_instance

/-- Manual 446-458 and Figure 5: a special register is named by its two-digit number or its mnemonic. -/
def RegText (r : Str) : Prop :=
  r ∈ regNames ∨ r ∈ aliasNames ∨ ∃ k < 32, r = [Nat.digitChar (k / 10), Nat.digitChar (k % 10)]

instance (r : Str) : Decidable (RegText r) := by unfold RegText; infer_instance

/-- Manual 403-474: what may stand in the location field (spaces are ignored): a symbolic tag; a mask
tag, a link tag or an out-of-sequence tag, that is a letter, a comma and a symbolic tag; `X,` alone; or
a special register tag. -/
def LegalTag (l : Str) : Prop :=
  let s := l.filter (· ≠ ' ')
  SymTag s ∨ (∃ p ∈ ['F', 'S', 'B', 'L', 'X'], ∃ t, SymTag t ∧ s = p :: ',' :: t) ∨ s = py "X," ∨
    ∃ r, RegText r ∧ s = 'Z' :: ',' :: r

/-- Manual 968-988: the operations that assign a tag to a complex address. -/
def Assigns (o : Str) : Prop := o = py "ASSIGN" ∨ o = py "TAS"

/-- Manual 933: a SETLOC that specifies a subsegment has a comma and the number of the subsegment, from
1 to 7, after the operation code, followed by a C if the subsegment is common. -/
def ManualSets (s : Src) (d : Char) : Prop :=
  ¬ Starred s ∧ '1' ≤ d ∧ d ≤ '7' ∧
    (HasOp s (py "SETLOC," ++ [d]) ∨ HasOp s (py "SETLOC," ++ [d, 'C']))

/-- Every SETLOC is written as the manual says, with or without a subsegment. -/
def ManualSetlocs (out : List Src) : Prop :=
  ∀ s ∈ out, ∀ o r, ¬ Starred s → HasOp s o → o = py "SETLOC" ++ r → r = [] ∨ ∃ d, ManualSets s d

/-- Manual 931, 935: the subsegment of a line is the one specified by the last SETLOC that specifies
one, or subsegment 1 if there is none. -/
def ManualCurrent (out : List Src) (i : Nat) (d : Char) : Prop :=
  (∃ j s, j ≤ i ∧ out[j]? = some s ∧ ManualSets s d ∧
    ∀ k s', j < k → k ≤ i → out[k]? = some s' → ∀ d', ¬ ManualSets s' d') ∨
  (d = '1' ∧ ∀ k s', k ≤ i → out[k]? = some s' → ∀ d', ¬ ManualSets s' d')

end H800.Spec
