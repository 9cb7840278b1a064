import Verif.Model.BitField
import Verif.Spec.Bits

/-!
The abstract counterpart of an MSB-left bit-field: an array of bits, addressed by weight. The
operations are the client operations `BfOp` of the model; their effect is described here by what
happens to each bit, without masks or shifts.
-/

namespace H800.Spec

/-- An array of bits: the bit of weight `2^k` for each `k`. -/
abbrev BitArray := Nat → Int

/-- Bits `lo, ..., lo + n - 1` are replaced by the bits of `x`. -/
def BitArray.write (a : BitArray) (lo n : Nat) (x : Int) : BitArray :=
  fun k => if lo ≤ k ∧ k < lo + n then bitOf x (k - lo) else a k

/-- Replacing the bits named by indices `s` to `e`, from left to right; nothing happens when they
are no such range of a `W`-bit field. -/
def BitArray.writeRange (a : BitArray) (scheme W : Nat) (s e x : Int) : BitArray :=
  if 0 ≤ weightExp scheme W e ∧ weightExp scheme W e ≤ weightExp scheme W s ∧
      weightExp scheme W s < W then
    a.write (weightExp scheme W e).toNat
      (weightExp scheme W s - weightExp scheme W e + 1).toNat x
  else a

/-- `set` and `clear`: one bit, or all of them without an index. An index 0 counts as no index
(see C10). -/
def BitArray.fill (a : BitArray) (scheme W : Nat) (x : Int) : Option Int → BitArray
  | none => fun _ => x
  | some i => if i = 0 then fun _ => x else a.writeRange scheme W i i x

/-- The effect of an operation. -/
def BitArray.step (scheme W : Nat) (a : BitArray) : BfOp → BitArray
  | .setitem (.idx i) x => a.writeRange scheme W i i x
  | .setitem (.slice (some s) (some e)) x => a.writeRange scheme W s e x
  | .setitem (.slice _ _) _ => a
  | .setValue x => fun k => bitOf x k
  | .set i => a.fill scheme W 1 i
  | .clear i => a.fill scheme W 0 i

/-- The array after a history of operations, from the bits of `v`. -/
def BitArray.run (scheme W : Nat) (v : Int) (ops : List BfOp) : BitArray :=
  ops.foldl (BitArray.step scheme W) (fun k => bitOf v k)

end H800.Spec
