import Verif.Model.Disk
import Verif.Spec.LastWords

/-! What is meant by the texts of the files on a disk, for C215 and C216. -/

namespace H800.Spec

/-- The bytes of a text in UTF-8. -/
def encoded (s : Str) : List UInt8 := s.flatMap String.utf8EncodeChar

/-- The characters stored in the files of a disk, as far as they are files with a text. -/
def Stored (disk : Disk) (chars : FileSystem) : Prop :=
  ∀ f s, chars f = some s ↔ disk f = some (.file (encoded s))

/-- A file that exists but cannot be read, and how the attempt ends: it may not be opened, or it is no
text. -/
inductive Unreadable (disk : Disk) (g : Str) : Stop → Prop
  | denied : disk g = some .locked → Unreadable disk g .denied
  | decode {bytes : List UInt8} : disk g = some (.file bytes) → (∀ s, bytes ≠ encoded s) →
      Unreadable disk g .decode

/-- What is said of a missing file. -/
def MissingText (g t : Str) : Prop :=
  t = py "ERROR: File \"" ++ g ++ py "\" does not exist!" ∨ t = py "File \"" ++ g ++ py "\" does not exist"

/-- A run of a tool on a disk (first) does as a run on the texts of its files (second), as far as the
files can be read: they print the same and end in the same way; or both print the same and the run on the
disk says that a file does not exist, which is not there or is a directory; or the run on the disk stops
at a file that cannot be read, after the same output and perhaps the line that it reads this file. If the
files are nested too deeply, this file is not opened. -/
inductive SameRun (disk : Disk) (verbose : Bool) {α β : Type} :
    List (VMsg α) × Except Stop β → List (VMsg α) × Py β → Prop
  | ends (out : List (VMsg α)) (b : β) : SameRun disk verbose (out, .ok b) (out, .ok b)
  | raises (out : List (VMsg α)) (e : PyErr) :
      SameRun disk verbose (out, .error (.raised e)) (out, .error e)
  | missing (out : List (VMsg α)) {g t : Str} : disk g = none ∨ disk g = some .dir → MissingText g t →
      SameRun disk verbose (out, .error (.exit t)) (out, .error .systemExit)
  | denied (out : List (VMsg α)) {g : Str} : Unreadable disk g .denied →
      SameRun disk verbose (out, .error .denied) (out, .error .systemExit)
  | decode (out : List (VMsg α)) {g : Str} : Unreadable disk g .decode →
      SameRun disk verbose (out ++ (if verbose then [.reading g] else []), .error .decode)
        (out, .error .systemExit)
  | deep (out : List (VMsg α)) {g : Str} {s : Stop} : Unreadable disk g s →
      SameRun disk verbose (out, .error (.raised .recursionError)) (out, .error .systemExit)

end H800.Spec
