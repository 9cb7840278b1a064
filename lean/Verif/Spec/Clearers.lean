import Verif.Model.Clearers

/-!
What several threads that clear one register group leave behind.
-/

namespace H800.Spec

/-- The group has a register of the store for each of the 32 numbers. -/
def FullGroup (heap : List Register) (g : RegisterGroup) : Prop :=
  ∀ k : Nat, k < 32 → ∃ r, dget g.regs (.num k) = some r ∧ r < heap.length

/-- The register of this number is zero. -/
def Zeroed (heap : List Register) (g : RegisterGroup) (k : Nat) : Prop :=
  ∃ r x, dget g.regs (.num k) = some r ∧ heap[r]? = some x ∧ x.value = 0

/-- The thread is within a call of `next`. -/
def WithinNext : Clearing → Prop
  | .passed | .read _ | .moved => True
  | _ => False

/-- The call of `clear` is over. -/
def CallOver : Clearing → Prop
  | .ended | .failed _ => True
  | _ => False

/-- No thread makes a step while another one is within a call of `next`. -/
def NextInTurn : Clearers → List Nat → Prop
  | _, [] => True
  | s, i :: l => (∀ (j : Nat) (t : Clearing), s.threads[j]? = some t → WithinNext t → j = i) ∧
      NextInTurn (s.step i) l

instance : DecidablePred WithinNext := fun t => by cases t <;> unfold WithinNext <;> infer_instance
instance : DecidablePred CallOver := fun t => by cases t <;> unfold CallOver <;> infer_instance

end H800.Spec
