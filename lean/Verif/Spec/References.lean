import Verif.Spec.SymbolTable

/-! The references a history of calls gives to a symbol. -/

namespace H800.Spec

/-- The references added to `n`, in order, by the calls after its definition; `d` says whether it is
already defined. -/
def refsSince {ν : Type} (n : Str) : Bool → List (Call ν) → List Str
  | _, [] => []
  | d, .add c :: cs => refsSince n (d || decide (c.name = n)) cs
  | d, .ref m r :: cs => if d = true ∧ m = n then r :: refsSince n d cs else refsSince n d cs
  | d, .update _ _ _ :: cs => refsSince n d cs
  | d, .prune :: cs => refsSince n d cs
  | d, .resolve _ :: cs => refsSince n d cs

end H800.Spec
