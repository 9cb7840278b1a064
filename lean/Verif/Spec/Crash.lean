import Verif.Spec.Disk
import Verif.Spec.Cards
import Verif.Model.Crash

/-! Runs that are stopped, for C223 to C225. -/

namespace H800.Spec

/-- A run with these effects on a disk may be stopped with the disk in this state. -/
def Stopped (effects : List Effect) (disk d : Disk) : Prop :=
  ∃ done rest, effects = done ++ rest ∧ d = done.foldl Effect.run disk

/-- The states of the disk after any number of runs, each of which is stopped; `effects` tells what a run
does to a disk. -/
inductive Interrupted (effects : Disk → List Effect) (disk : Disk) : Disk → Prop
  | none : Interrupted effects disk disk
  | again {d d' : Disk} : Interrupted effects disk d → Stopped (effects d) d d' →
      Interrupted effects disk d'

/-- The files that a run with these arguments may read: those given, and those that they include. -/
inductive Reached (fs : FileSystem) (args : List Str) : Str → Prop
  | given {f : Str} : f ∈ args → Reached fs args f
  | include_ {f g : Str} : Reached fs args f → Includes fs f g → Reached fs args g

end H800.Spec
