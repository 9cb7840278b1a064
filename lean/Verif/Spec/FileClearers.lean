import Verif.Model.FileClearers
import Verif.Spec.Clearers

/-!
What several threads that clear one register file leave behind.
-/

namespace H800.Spec

/-- The file has a group with all 32 registers for each of the 8 numbers. -/
def FullFile (f : Registers) : Prop :=
  ∀ k : Nat, k < 8 → ∃ g grp, dget f.slots (k : Int) = some g ∧ f.groups[g]? = some grp ∧
    FullGroup f.heap grp

/-- The cursors of the file and of all groups are at the beginning. -/
def AtBegin (f : Registers) : Prop := f.current = 0 ∧ ∀ grp ∈ f.groups, grp.current = 0

/-- The register of the store belongs to a group of the file. -/
def InFile (f : Registers) (a : Nat) : Prop :=
  ∃ (k : Int) (g : Nat) (grp : RegisterGroup) (j : Int), dget f.slots k = some g ∧
    f.groups[g]? = some grp ∧ dget grp.regs (.num j) = some a

/-- The thread is within a call of `next` of the file or of a group. -/
def WithinFileNext : FileClearing → Prop
  | .passed | .read _ | .moved => True
  | .within _ t => WithinNext t
  | _ => False

/-- The call of `clear` of the file is over. -/
def FileCallOver : FileClearing → Prop
  | .ended | .failed _ => True
  | _ => False

/-- No thread makes a step while another one is within a call of `next`. -/
def FileNextInTurn : FileClearers → List Nat → Prop
  | _, [] => True
  | s, i :: l => (∀ (j : Nat) (t : FileClearing), s.threads[j]? = some t → WithinFileNext t → j = i) ∧
      FileNextInTurn (s.step i) l

instance : DecidablePred WithinFileNext := fun t => by
  cases t <;> unfold WithinFileNext <;> infer_instance

end H800.Spec
