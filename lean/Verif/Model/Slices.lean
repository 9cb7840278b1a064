import Verif.Model.Memory

/-!
Model of subscripts `x[start:stop:step]` of memory banks and modules. Bit-fields
and registers (bitfield.py 344, 367; registers.py 118, 124) use `key.start` and `key.stop` only, as
modelled by `Key.slice`.
-/

namespace H800

/-- A Python slice object. -/
structure PySlice where
  start : Option Int
  stop : Option Int
  step : Option Int
  deriving DecidableEq, Repr

/-- memory.py 48-52: `range(key.start, key.stop)`. -/
def MemoryBank.getPySlice (m : MemoryBank) (k : PySlice) : Py (List Int) :=
  m.getSlice k.start k.stop

/-- memory.py 57-59. -/
def MemoryBank.setPySlice (m : MemoryBank) (k : PySlice) (v : Int) : MemoryBank × Py Unit :=
  m.setSlice k.start k.stop v

/-- memory.py 98-103, 125-130: `module[key]` for a slice; `range(None, ..)` raises TypeError. -/
def MemoryModule.getPySlice (m : MemoryModule) (k : PySlice) : Py (List MemoryBank) := do
  let s ← BitField.needInt k.start
  let e ← BitField.needInt k.stop
  m.bankList (pyRange s e)

end H800
