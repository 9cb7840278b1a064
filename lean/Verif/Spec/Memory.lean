import Verif.Model.Memory
import Verif.Spec.Bits

/-!
The abstract memory: a function from addresses to values. Only the type of operations is shared with
the model.
-/

namespace H800.Spec

/-- The abstract effect of one operation on a bank of `N` words. A fill writes upwards from `s` and
stops at the end of the bank; nothing is written if the first address or the value is invalid. -/
def memStep (N : Int) (mem : Int → Int) : MemOp → Int → Int
  | .write a v => fun x => if x = a ∧ (0 ≤ a ∧ a < N) ∧ Fits 48 v then v else mem x
  | .fill (some s) (some e) v => fun x =>
    if (s ≤ x ∧ x < e) ∧ 0 ≤ s ∧ Fits 48 v then v else mem x
  | .fill _ _ _ => mem
  | .clear => fun _ => 0
  | .next => mem
  | .forLoop => mem

end H800.Spec
