import Verif.Spec.BitArray

/-!
The abstract counterpart of an LSB-left bit-field: as it is meant, and as slices really behave.
-/

namespace H800.Spec

/-- The effect of an operation as it is meant: the first bound of a slice has the lowest weight. -/
def BitArray.stepLeft (scheme W : Nat) (a : BitArray) (op : BfOp) : BitArray :=
  match op with
  | .setitem (.slice (some s) (some e)) x => a.writeRange scheme W e s x
  | op => BitArray.step scheme W a op

/-- The code's write to the bits `lo, ..., lo + n - 1`: as many bits from the highest one on are
cleared, and then the ones of `x` are put in place. -/
def BitArray.oddWrite (a : BitArray) (lo n : Nat) (x : Int) : BitArray :=
  fun k => if (a k = 1 ∧ ¬ (lo + n - 1 ≤ k ∧ k < lo + n - 1 + n)) ∨ (lo ≤ k ∧ bitOf x (k - lo) = 1)
    then 1 else 0

/-- The code's effect of an operation: slices other than the whole field are written oddly. -/
def BitArray.stepOdd (scheme W : Nat) (a : BitArray) (op : BfOp) : BitArray :=
  match op with
  | .setitem (.slice (some s) (some e)) x =>
    if 0 ≤ weightExp scheme W s ∧ weightExp scheme W s ≤ weightExp scheme W e ∧
        weightExp scheme W e < W then
      if weightExp scheme W s = 0 ∧ weightExp scheme W e = W - 1 then fun k => bitOf x k
      else a.oddWrite (weightExp scheme W s).toNat
        (weightExp scheme W e - weightExp scheme W s + 1).toNat x
    else a
  | op => BitArray.step scheme W a op

/-- The operation is not a slice write, or one of a single bit or of the whole field, or one that is
rejected. -/
def PlainOp (scheme W : Nat) : BfOp → Prop
  | .setitem (.slice (some s) (some e)) _ =>
    weightExp scheme W s = weightExp scheme W e ∨
    (weightExp scheme W s = 0 ∧ weightExp scheme W e = W - 1) ∨
    ¬ (0 ≤ weightExp scheme W s ∧ weightExp scheme W s ≤ weightExp scheme W e ∧
        weightExp scheme W e < W)
  | _ => True

end H800.Spec
