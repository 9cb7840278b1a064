import Verif.Model.FieldKeys

/-! What it is for a bit-field to be used as the int that is its value (C228). -/

namespace H800.Spec

/-- A bound with the int instead of the field. -/
def intBound : BoundF → BoundF
  | .val v => .val v
  | .field f => .val (.int f.value)

/-- A subscript with the ints instead of the fields. -/
def intKey : KeyF → KeyF
  | .key k => .key k
  | .field f => .key (.int f.value)
  | .slice s e => .slice (intBound s) (intBound e)

end H800.Spec
