import Verif.Spec.Idle
import Verif.Spec.CommandLine
import Verif.Model.Verbose

/-!
Vocabulary for statements about lines without code put in or taken out anywhere in the files, and about
reports that differ in line numbers, names of files or texts only.
-/

namespace H800.Spec

/-- The two lists of lines are the same but for lines without code; a line may have its newline in one
of them only. -/
inductive Interspersed : List Str → List Str → Prop
  | nil : Interspersed [] []
  | put (l : Str) {ls ls' : List Str} : NoCode l → Interspersed ls ls' → Interspersed ls (l :: ls')
  | take (l : Str) {ls ls' : List Str} : NoCode l → Interspersed ls ls' → Interspersed (l :: ls) ls'
  | line (l : Str) {ls ls' : List Str} : Interspersed ls ls' → Interspersed (l :: ls) (l :: ls')
  | ended (l : Str) {ls ls' : List Str} : '\n' ∉ l → Interspersed ls ls' →
      Interspersed (l :: ls) ((l ++ ['\n']) :: ls')
  | unended (l : Str) {ls ls' : List Str} : '\n' ∉ l → Interspersed ls ls' →
      Interspersed ((l ++ ['\n']) :: ls) (l :: ls')

/-- The two file systems have the same files but for lines without code. -/
def SameProgram (fs fs' : Str → Option Str) : Prop :=
  ∀ g, (fs g = none ∧ fs' g = none) ∨
    ∃ t t', fs g = some t ∧ fs' g = some t' ∧ Interspersed (readlines t) (readlines t')

/-! Messages of which some parts are left out: the line numbers, the names of the files in which lines
stand, and the texts that no tool looks into. Each number left out is replaced by 0, each name and text
by the empty one. -/

/-- What is not left out of the messages. -/
structure Keep where
  /-- the names of the files in which lines stand -/
  names : Bool
  /-- the numbers of lines -/
  lines : Bool
  /-- the texts of the lines, the log numbers and the operands -/
  texts : Bool
  /-- the names under which the files are given to the tool -/
  given : Bool
  /-- the spaces within labels -/
  blanks : Bool

/-- Without the line numbers. -/
abbrev Keep.noLines : Keep := ⟨true, false, true, true, true⟩

/-- Without the line numbers and the names of the files. -/
abbrev Keep.noPlaces : Keep := ⟨false, false, true, true, true⟩

/-- Without the line numbers and any names of files. -/
abbrev Keep.noFiles : Keep := ⟨false, false, true, false, true⟩

/-- Without the texts. -/
abbrev Keep.noTexts : Keep := ⟨true, true, false, true, true⟩

/-- Without the texts and the spaces within labels. -/
abbrev Keep.noBlanks : Keep := ⟨true, true, false, true, false⟩

/-- The name of a file, or the empty text in its place. -/
def anonName (k : Keep) (f : Str) : Str := if k.names then f else []

/-- The name under which a file is given, or the empty text in its place. -/
def anonGiven (k : Keep) (f : Str) : Str := if k.given then f else []

/-- The number of a line, or 0 in its place. -/
def anonNum (k : Keep) (n : Int) : Int := if k.lines then n else 0

/-- A text, or the empty one in its place. -/
def anonText (k : Keep) (t : Str) : Str := if k.texts then t else []

/-- An entry of a card that no tool looks into, or none in its place. -/
def anonField (k : Keep) (t : Option Str) : Option Str := if k.texts then t else none

/-- A label, or what is left of it without its spaces. -/
def anonLabel (k : Keep) (t : Str) : Str := if k.blanks || t.all (· = ' ') then t else t.filter (· ≠ ' ')

/-- A card without these parts. -/
def anonCard (k : Keep) (c : CodeCard) : CodeCard :=
  { c with
    file := c.file.map (anonName k), line := anonNum k c.line, lognum := anonField k c.lognum,
    label := c.label.map (anonLabel k), addressa := anonField k c.addressa, addressb := anonField k c.addressb,
    addressc := anonField k c.addressc, text := anonText k c.text }

/-- A definition without these parts. -/
def anonEntry (k : Keep) (e : SymEntry) : SymEntry :=
  { e with
    file := e.file.map (anonName k), line := anonNum k e.line, lognum := anonField k e.lognum,
    card := anonCard k e.card }

/-- Change the values of a dict. -/
def onValues {κ α β : Type} (f : α → β) (d : List (κ × α)) : List (κ × β) :=
  d.map fun p => (p.1, f p.2)

/-- An error of the symbol table without these parts. -/
def anonDiag (k : Keep) (d : Diag) : Diag :=
  { d with
    file := d.file.map (anonName k), line := anonNum k d.line, lognum := anonField k d.lognum,
    card := anonCard k d.card, prev := onValues (anonEntry k) d.prev }

/-- A line of list-symbols without these parts. -/
def anonLine (k : Keep) : ListLine → ListLine
  | .entry kind tagtype file n card =>
    .entry kind tagtype (anonName k file) (anonNum k n) (anonText k card)
  | l => l

/-- What find-symbols has found, without these parts. -/
def anonFound (k : Keep) : Found → Found
  | .defs d => .defs (onValues (onValues (onValues (anonEntry k))) d)
  | r => r

/-- A message of the symbol tools without these parts. -/
def anonSym (k : Keep) : SymMsg → Option SymMsg
  | .diag r => some (.diag (anonDiag k r))
  | .found r => some (.found (anonFound k r))
  | .listing l => some (.listing (anonLine k l))
  | .fileErrs f n => some (.fileErrs (anonGiven k f) n)
  | m => some m

/-- A message of check-instructions without these parts; with the line numbers the line count is left
out. -/
def anonCheck (k : Keep) : CheckMsg → Option CheckMsg
  | .card c => some (.card (anonCard k c))
  | .invalid c => some (.invalid (anonCard k c))
  | .lines n => if k.lines then some (.lines n) else none
  | m => some m

/-- A message of parse without these parts. -/
def anonParse (k : Keep) : ParseMsg → Option ParseMsg
  | .inl m => (anonSym k m).map .inl
  | .inr m => (anonCheck k m).map .inr

/-- A message without these parts. With the line numbers, what is told about skipped comments is left
out, and with the names of the files that a file is read. -/
def anonMsg {α : Type} (k : Keep) (f : α → Option α) : VMsg α → Option (VMsg α)
  | .meta_ g n => if k.lines then some (.meta_ g n) else none
  | .reading g => if k.names then some (.reading g) else none
  | .starred c => some (.starred (anonCard k c))
  | .msg m => (f m).map .msg
  | m => some m

/-- All that a tool has printed, without these parts, and how it ended. -/
def anonRun {α : Type} (k : Keep) (f : α → Option α) (r : List (VMsg α) × Py Unit) :
    List (VMsg α) × Py Unit :=
  (r.1.filterMap (anonMsg k f), r.2)

/-- Not about a skipped comment if line numbers are left out, and not about a file being read if names
are. -/
def notComment {α : Type} (k : Keep) : VMsg α → Bool
  | .meta_ _ _ => k.lines
  | .reading _ => k.names
  | _ => true

/-- Two messages of list-instructions that tell the same but for the parts left out. -/
inductive SameEntry (k : Keep) (details : Bool) : VMsg Str → VMsg Str → Prop
  | reading (f : Str) : SameEntry k details (.reading f) (.reading f)
  | skipped (f : Str) (n : Nat) : SameEntry k details (.meta_ f n) (.meta_ f n)
  | starred (c c' : CodeCard) : anonCard k c = anonCard k c' →
      SameEntry k details (.starred c) (.starred c')
  | text (t t' : Str) : details = false → anonText k t = anonText k t' →
      SameEntry k details (.msg t) (.msg t')
  | line (s s' : Src) (t t' : Str) : details = true → anonName k s.file = anonName k s'.file →
      anonNum k s.num = anonNum k s'.num →
      anonText k (s.text.filter (· ≠ '\n')) = anonText k (s'.text.filter (· ≠ '\n')) →
      ListsLine True s t → ListsLine True s' t' → SameEntry k details (.msg t) (.msg t')

end H800.Spec
