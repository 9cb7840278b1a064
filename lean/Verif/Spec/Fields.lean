import Verif.Spec.Bits

/-! Sub-fields of a number, by arithmetic. -/

namespace H800.Spec

/-- The `n`-bit field of `v` at bit `lo`. -/
def field (v : Int) (lo n : Nat) : Int := v / 2 ^ lo % 2 ^ n

/-- `v` with its `n`-bit field at bit `lo` replaced by `x`. -/
def putField (v : Int) (lo n : Nat) (x : Int) : Int := v + (x - field v lo n) * 2 ^ lo

end H800.Spec
