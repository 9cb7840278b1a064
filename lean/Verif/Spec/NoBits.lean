import Verif.Spec.Messages
import Verif.Model.NoBits

/-!
Bit-fields without bits.
-/

namespace H800.Spec

/-- The call is to set or to clear the whole field. -/
def FillsAll : BfCall → Prop
  | .set i => i = none ∨ i = some 0
  | .clear i => i = none ∨ i = some 0
  | _ => False

/-- The call is to set the whole field to ones. -/
def SetsAll : BfCall → Prop
  | .set i => i = none ∨ i = some 0
  | _ => False

end H800.Spec
