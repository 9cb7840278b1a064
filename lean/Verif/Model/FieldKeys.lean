import Verif.Model.Keys
import Verif.Model.BitFieldMisc

/-!
Bit-fields as subscripts. A bit-field has `__index__` (bitfield.py 404-405), so that `range` takes it for an
int; it has no `__eq__` and no `__hash__`, so that as a key of a dict it is equal to nothing but itself, and
no `__lt__`, `__add__` or `__sub__`. The containers hold no field as a key of a dict.
-/

namespace H800

/-- A bound of a slice: a value of the other properties, or a bit-field. -/
inductive BoundF where
  | val (v : PyVal)
  | field (f : BitField)
  deriving DecidableEq, Repr

/-- A subscript: a key of the other properties, a bit-field, or a slice of which a bound may be a bit-field. -/
inductive KeyF where
  | key (k : PyKey)
  | field (f : BitField)
  | slice (start stop : BoundF)
  deriving DecidableEq, Repr

namespace BoundF

/-- A bound given to `range`, which uses `__index__`. -/
def ranged : BoundF → PyVal
  | .val v => v
  | .field f => .int f.index

/-- A bound given to comparisons and sums. The truth value is that of `len`. -/
def plain : BoundF → PyVal
  | .val v => v
  | .field f => .other (f.width != 0)

end BoundF

namespace MemoryBank

/-- memory.py 47-54: `bank[key]`. -/
def getF (m : MemoryBank) : KeyF → Py (Int ⊕ List Int)
  | .key k => m.getK k
  | .field _ => .error .keyError
  | .slice s e => m.getK (.slice s.ranged e.ranged)

/-- memory.py 56-61: `bank[key] = value`. -/
def setF (F : FloatOps) (m : MemoryBank) (k : KeyF) (v : PyVal) : MemoryBank × Py Unit :=
  match k with
  | .key k => m.setK F k v
  | .field _ => (m, .error .keyError)
  | .slice s e => m.setK F (.slice s.ranged e.ranged) v

end MemoryBank

namespace MemoryModule

/-- memory.py 98-105, 125-132: `module[key]`. -/
def getF (m : MemoryModule) : KeyF → Py (MemoryBank ⊕ List MemoryBank)
  | .key k => m.getK k
  | .field _ => .error .keyError
  | .slice s e => m.getK (.slice s.ranged e.ranged)

end MemoryModule

namespace RegisterGroup

/-- registers.py 154-164: `group[key]`; a field cannot be compared (162). -/
def getF (g : RegisterGroup) : KeyF → Py Nat
  | .key k => g.getK k
  | .field _ => .error .typeError
  | .slice _ _ => .error .valueError

/-- registers.py 166-172: `group[key] = register`. -/
def setF (g : RegisterGroup) (k : KeyF) (r : Nat) : RegisterGroup × Py Unit :=
  match k with
  | .key k => g.setK k r
  | .field _ => (g, .error .keyError)
  | .slice _ _ => (g, .error .valueError)

end RegisterGroup

namespace Registers

/-- registers.py 214-222: `registers[key]`; a field is no int (217). -/
def getF (s : Registers) : KeyF → Py Nat
  | .key k => s.getK k
  | .field _ => .error .valueError
  | .slice _ _ => .error .valueError

/-- registers.py 224-230: `registers[key] = group`. -/
def setF (s : Registers) (k : KeyF) (g : Nat) : Registers × Py Unit :=
  match k with
  | .key k => s.setK k g
  | .field _ => (s, .error .valueError)
  | .slice _ _ => (s, .error .valueError)

end Registers

/-- registers.py 52-57: `registerName(number)`; a field can be formatted by `%d` (57). Of a slice the
message cannot be made. -/
def registerNameF : KeyF → Py Str
  | .key k => registerNameK k
  | .field _ => .error .valueError
  | .slice _ _ => .error .typeError

/-- registers.py 60-68: `registerAlias(number)`. -/
def registerAliasF : KeyF → Py Str
  | .key k => registerAliasK k
  | .field _ => .error .valueError
  | .slice _ _ => .error .typeError

namespace BitField

/-- The subscripts that a bit-field is given in the other properties. A string, a tuple and any other object
can neither be compared with ints nor be added to them; that `set` and `clear` ask for their truth value does
not matter here. -/
def keyF : KeyF → KeyV
  | .key (.int n) => .idx (.int n)
  | .key (.float x) => .idx (.float x)
  | .key (.slice s e) => .slice s e
  | .key _ => .idx (.other true)
  | .field f => .idx (BoundF.field f).plain
  | .slice s e => .slice s.plain e.plain

/-- bitfield.py 343-364: `b[key]`. -/
def getF (F : FloatOps) (b : BitField) (k : KeyF) : Py Int := b.getitemV F (keyF k)

/-- bitfield.py 366-396: `b[key] = value`. -/
def setF (F : FloatOps) (b : BitField) (k : KeyF) (v : PyVal) : BitField × Py Unit :=
  b.setitemV F (keyF k) v

end BitField

end H800
