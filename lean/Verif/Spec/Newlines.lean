import Verif.Model.Newlines

/-! What is meant by the lines of a stored file, for C200. -/

namespace H800.Spec

/-- The ways to end a line: a newline, a carriage return, or both in this order. -/
def LineEnd (e : Str) : Prop := e = ['\n'] ∨ e = ['\r', '\n'] ∨ e = ['\r']

/-- The lines of a stored file; each line may be ended in its own way, the last one may not be ended
at all. A carriage return and a newline after it are always one end. -/
inductive StoredLines : Str → List Str → Prop
  | nil : StoredLines [] []
  | last {l : Str} : l ≠ [] → '\n' ∉ l → '\r' ∉ l → StoredLines l [l]
  | line {l e rest : Str} {ls : List Str} : '\n' ∉ l → '\r' ∉ l → LineEnd e →
      (e = ['\r'] → rest.head? ≠ some '\n') → StoredLines rest ls →
      StoredLines (l ++ e ++ rest) ((l ++ ['\n']) :: ls)

/-- Two file systems with the same files, whose lines are the same but may be ended differently. -/
def SameStored (disk disk' : FileSystem) : Prop :=
  ∀ f, (disk f = none ∧ disk' f = none) ∨
    ∃ a b ls, disk f = some a ∧ disk' f = some b ∧ StoredLines a ls ∧ StoredLines b ls

end H800.Spec
