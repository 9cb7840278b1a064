import Verif.Model.Registers
import Verif.Model.Memory

/-!
The printed forms of register groups and register files (registers.py 187-191, 245-249). Those of a
register and of a memory bank are in `Model/Registers.lean` and `Model/Memory.lean`.
-/

namespace H800

/-- registers.py 189-190: the loop of `RegisterGroup.__repr__`, over the dict in insertion order. -/
def RegisterGroup.reprLoop (heap : List Register) : Dict GKey Nat → Py Str
  | [] => .ok []
  | (_, r) :: rest =>
    match heap[r]? with
    | none => .error .attributeError
    | some x => do
      let t ← reprLoop heap rest
      return x.repr ++ [' '] ++ t

/-- registers.py 187-191: `str(group)`, in the store `heap` of registers. -/
def RegisterGroup.repr (heap : List Register) (g : RegisterGroup) : Py Str :=
  RegisterGroup.reprLoop heap g.regs

/-- registers.py 247-248: the loop of `Registers.__repr__`; `%d` of a group number, which may be
negative after `registers[-1] = ...`. -/
def Registers.reprLoop (s : Registers) : Dict Int Nat → Py Str
  | [] => .ok []
  | (k, g) :: rest =>
    match s.groups[g]? with
    | none => .error .attributeError
    | some grp => do
      let t ← grp.repr s.heap
      let u ← s.reprLoop rest
      return ['['] ++ (if k < 0 then '-' :: numeral 10 k.natAbs else numeral 10 k.natAbs) ++ py "] "
        ++ t ++ ['\n'] ++ u

/-- registers.py 245-249: `str(registers)`. -/
def Registers.repr (s : Registers) : Py Str := s.reprLoop s.slots

end H800
