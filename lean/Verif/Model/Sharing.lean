import Verif.Model.Registers

/-!
Assignments between the groups of one register file (`h800/registers.py`): the store of
`Verif.Model.Registers` makes the sharing visible.
-/

namespace H800

/-- Client operations on a register file: those on its groups, and `registers[a] = registers[b]`. -/
inductive FileOp where
  | op (o : RegOp)
  | assign (a b : FKey)
  deriving DecidableEq, Repr

/-- One operation; an exception is caught by the client. `registers[a] = registers[b]` evaluates the
right-hand side first (registers.py 214-222), then calls `__setitem__` (224-230). -/
def FileOp.run (s : Registers) : FileOp → Registers
  | .op o => o.run s
  | .assign a b =>
    match s.getitem b with
    | .ok g => (s.setitem a g).1
    | .error _ => s

end H800
