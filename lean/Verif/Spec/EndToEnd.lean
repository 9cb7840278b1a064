import Verif.Model.Memory
import Verif.Spec.Bits

/-! What an operation of a history can reach: a word of a memory bank, a bit of a field. -/

namespace H800.Spec

/-- An operation that leaves a word alone: writes elsewhere, fills of other words, iteration. -/
def Misses (a : Int) : MemOp → Prop
  | .write x _ => x ≠ a
  | .fill (some s) (some e) _ => ¬ (s ≤ a ∧ a < e)
  | .fill _ _ _ => True
  | .clear => False
  | .next => True
  | .forLoop => True

instance (a : Int) (op : MemOp) : Decidable (Misses a op) := by
  cases op <;> unfold Misses <;> first | infer_instance | skip
  split <;> infer_instance

/-- The bits `set` and `clear` with this argument reach: an index 0 counts as no index (see C10). -/
def TouchedOpt (scheme W : Nat) (i : Option Int) (k : Nat) : Prop :=
  match i with
  | none => True
  | some i => i = 0 ∨ weightExp scheme W i = k

/-- The bit of weight `2^k` is one of those an operation is about. -/
def Touched (scheme W : Nat) : BfOp → Nat → Prop
  | .setitem (.idx i) _, k => weightExp scheme W i = k
  | .setitem (.slice (some s) (some e)) _, k =>
    weightExp scheme W e ≤ k ∧ (k : Int) ≤ weightExp scheme W s
  | .setitem (.slice _ _) _, _ => False
  | .setValue _, _ => True
  | .set i, k => TouchedOpt scheme W i k
  | .clear i, k => TouchedOpt scheme W i k

end H800.Spec
