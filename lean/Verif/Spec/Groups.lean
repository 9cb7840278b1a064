import Verif.Model.BitField
import Verif.Spec.Fields

/-!
Bits taken in groups, as the figures of the reference manual divide words and registers: from the left
to the right, without gaps. Nothing here refers to what the model computes; the subscripts (`Key`) are
Python's.
-/

namespace H800.Spec

/-- The groups of the sizes `ns`, from the left: for each one the weight of its rightmost bit (as many
bits as there are in the groups to the right of it), and its size. -/
def bitGroups : List Nat → List (Nat × Nat)
  | [] => []
  | n :: ns => (ns.sum, n) :: bitGroups ns

/-- The number whose bits are those of the numbers `x`, each with its number of bits, from the left to
the right. -/
def ofGroups (gs : List (Nat × Int)) : Int := gs.foldl (fun acc g => acc * 2 ^ g.1 + g.2) 0

/-- The subscript is that of the `n` bits from weight `lo` on, in a field of `W` bits: the indices of
the leftmost and of the rightmost bit or, of a single bit, its index. -/
def Denotes (scheme W : Nat) : Key → Nat → Nat → Prop
  | .idx i, lo, n => n = 1 ∧ weightExp scheme W i = lo
  | .slice (some s) (some e), lo, n =>
    weightExp scheme W s = lo + n - 1 ∧ weightExp scheme W e = lo
  | .slice _ _, _, _ => False

end H800.Spec
