import Verif.Spec.Intersperse
import Verif.Spec.Cards

/-!
Specification of programs whose lines are divided among files in another way.
-/

namespace H800.Spec

/-- The expansions `srcs` and `srcs'` of the same files have the same lines but for lines without code,
whatever files the lines stand in. -/
def SameLines (srcs srcs' : List (Str × List Src)) : Prop :=
  List.Forall₂ (fun p q => p.1 = q.1 ∧ Interspersed (p.2.map (·.text)) (q.2.map (·.text))) srcs srcs'

/-- The same with other files: each file has the lines of the other in its place but for lines without
code, and a name with the same beginning, up to the first dot. -/
def SameSegments (srcs srcs' : List (Str × List Src)) : Prop :=
  List.Forall₂ (fun p q => (∃ s, BeforeFirst '.' p.1 s ∧ BeforeFirst '.' q.1 s) ∧ (p.1 = [] ↔ q.1 = []) ∧
    Interspersed (p.2.map (·.text)) (q.2.map (·.text))) srcs srcs'

/-- The lines of all files, one after the other. -/
def allLines (srcs : List (Str × List Src)) : List Str := srcs.flatMap fun p => p.2.map (·.text)

/-- The text of a file with the lines of an expansion, each ended by one newline. -/
def inlined (out : List Src) : Str := out.flatMap fun s => s.text.filter (· ≠ '\n') ++ ['\n']

end H800.Spec
