import Verif.Model.Calls
import Verif.Spec.Instruction

/-!
How Python passes the arguments of a call (language reference, 6.3.4), and the operands that the
instructions have by their kind (the key at the beginning of instructions.py).
-/

namespace H800.Spec

/-- Arguments that a function with these parameters accepts, and the values that its parameters get:
the first parameters get the arguments given by position, of which there are not too many; every keyword
is the name of one of the others; a parameter without argument has a default, which is None. -/
structure Passes (params : List (Str × Bool)) (call : CallArgs) (value : Str → Option Int) : Prop where
  few : call.pos.length ≤ params.length
  named : ∀ k ∈ call.kws.map (·.1), ∃ (i : Nat) (d : Bool), call.pos.length ≤ i ∧ params[i]? = some (k, d)
  first : ∀ (i : Nat) v k d, call.pos[i]? = some v → params[i]? = some (k, d) → value k = v
  keyword : ∀ k v, (k, v) ∈ call.kws → value k = v
  default : ∀ (i : Nat) k d, call.pos.length ≤ i → params[i]? = some (k, d) →
    k ∉ call.kws.map (·.1) → d = true ∧ value k = none

/-- The names of the operands of a kind of instruction, in the order of the layouts in instruction.py:
those with a mask may have a mask or address bits. -/
def operandNames : Sig → List Str
  | .maskable => [py "sequence", py "mask", py "a", py "b", py "c"]
  | .unmasked | .scientific => [py "sequence", py "a", py "b", py "c"]
  | .proceed => []
  | .peripheral => [py "paddr"]
  | .simulator => [py "sequence"]

/-- Whether an operand may be left out: the mask and the address bits of a maskable instruction may, and
the sequence bit of `BinaryAdd`. -/
def MayOmit (cls : Str) (sig : Sig) (k : Str) : Prop :=
  sig = .maskable ∧ (k ∈ [py "mask", py "a", py "b", py "c"] ∨ k = py "sequence" ∧ cls = py "BinaryAdd")

/-- Operands by name. -/
def operand (x : Args) (k : Str) : Option Int :=
  if k = py "sequence" then x.sequence
  else if k = py "mask" then x.mask
  else if k = py "a" then x.a
  else if k = py "b" then x.b
  else if k = py "c" then x.c
  else if k = py "paddr" then x.paddr
  else none

end H800.Spec
