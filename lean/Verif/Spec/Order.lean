import Verif.Spec.CommandLine
import Verif.Spec.Faults

/-!
The order of all that a tool prints, with or without the option `--verbose`.
-/

namespace H800.Spec

open scoped Classical

/-- Something that is printed: added by the option, or not. -/
abbrev Told (α : Type) := Extra ⊕ α

/-- A message as one of these. -/
def told {α : Type} : VMsg α → Told α
  | .reading f => .inl (.note (.reading f))
  | .meta_ f n => .inl (.note (.comment f n))
  | .starred c => .inl (.starred c.file c.line c.text)
  | .wrote f => .inl (.wrote f)
  | .msg m => .inr m

/-- What is told while a file is read, if the option is given. -/
noncomputable def notesIf {α : Type} (verbose : Prop) (m : List Note) : List (Told α) :=
  if verbose then m.map fun n => .inl (.note n) else []

/-- All that is printed about a file that can be read: what is told while it is read, and then what the
tool says about its lines. -/
def Block {α : Type} (fs : Str → Option Str) (verbose : Prop)
    (about : Str → List Src → List (Told α) → Prop) (f : Str) (b : List (Told α)) : Prop :=
  f ≠ [] ∧ ∃ m src l, Tells fs f true m ∧ Expands fs f src ∧ about f src l ∧
    b = notesIf verbose m ++ l

/-- All that is printed about a file that cannot be read: what is told until reading stops. -/
def Broken {α : Type} (fs : Str → Option Str) (verbose : Prop) (f : Str) (b : List (Told α)) : Prop :=
  ((f = [] ∨ fs f = none) ∧ b = []) ∨ (f ≠ [] ∧ ∃ m, Tells fs f false m ∧ b = notesIf verbose m)

/-- The files are dealt with one after the other. -/
def Blocks {α : Type} (fs : Str → Option Str) (verbose : Prop)
    (about : Str → List Src → List (Told α) → Prop) (files : List Str) (b : List (Told α)) : Prop :=
  ∃ bs, List.Forall₂ (Block fs verbose about) files bs ∧ b = bs.flatten

/-- The files are dealt with one after the other until one of them cannot be read. -/
def BlocksUntil {α : Type} (fs : Str → Option Str) (verbose : Prop)
    (about : Str → List Src → List (Told α) → Prop) (files : List Str) (b : List (Told α)) : Prop :=
  ∃ pre f post b₁ b₂, files = pre ++ f :: post ∧ Blocks fs verbose about pre b₁ ∧
    Broken fs verbose f b₂ ∧ b = b₁ ++ b₂

/-- This is said about each line. -/
def EachLine {α : Type} (about : Src → List (Told α) → Prop) (_ : Str) (src : List Src)
    (l : List (Told α)) : Prop :=
  ∃ ls, List.Forall₂ about src ls ∧ l = ls.flatten

/-- What check-instructions and parse print for a line: itself if it has an instruction and such lines
are asked for; then, if it is starred and the option is given, that it is skipped; and an error if its
instruction is not known. -/
def CheckLine (verbose shown : Prop) (s : Src) (l : List (Told CheckMsg)) : Prop :=
  ∃ c, CardOf s c ∧ l = (if shown ∧ ∃ i, HasInstr s i then [.inr (.card c)] else []) ++
    (if verbose ∧ Starred s ∧ ∃ i, HasInstr s i then [.inl (skipped s)] else []) ++
    if BadInstr s then [.inr (.invalid c)] else []

/-- What list-instructions prints for a line. -/
def ListLineTold (verbose details : Prop) (opcode : Str) (s : Src) (l : List (Told Str)) : Prop :=
  (Matches opcode s ∧ ∃ t, ListsLine details s t ∧ l = [.inr t]) ∨
  (¬ Matches opcode s ∧
    l = if verbose ∧ Starred s ∧ ∃ o, HasOp s o then [.inl (skipped s)] else [])

/-- What the symbol tools print about a file. -/
def ReportTold (upper : Str → Str) (announce : Bool) (f : Str) (src : List Src)
    (l : List (Told SymMsg)) : Prop :=
  ∃ ms, FileReport upper announce (f, src) ms ∧ l = ms.map .inr

/-- Neither an error in a line nor the number of errors of a file. -/
def Summary (msg : SymMsg) : Prop :=
  (∀ d, msg ≠ .diag d) ∧ ∀ f k, msg ≠ .fileErrs f k

/-- What check-instructions prints at the end. -/
def CheckEnd (os : List Opt) (src : List Src) (msgs : List CheckMsg) : Prop :=
  ∃ fr un, FreqsAre src (Given os (py "unused")) (Given os (py "sort")) fr ∧ UnusedAre src un ∧
    msgs = (if Given os (py "count") then
        .lines src.length :: .total (number src fun s => ∃ i, HasInstr s i) ::
          fr.map fun p => .freq p.1 p.2 (number src fun s => ∃ i, HasInstr s i)
        else []) ++
      (if Given os (py "unused") then .unusedHeader :: un.map .unused else []) ++
      [.errors (number src BadInstr)]

/-- The same with the messages as those of another tool. -/
def Lifted {α β : Type} (g : α → β) (about : Str → List Src → List (Told α) → Prop) (f : Str)
    (src : List Src) (l : List (Told β)) : Prop :=
  ∃ l', about f src l' ∧ l = l'.map (Sum.map id g)

end H800.Spec
