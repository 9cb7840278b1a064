import Verif.Py

/-!
Model of `h800/bitfield.py` (class `BitField`, lines 84-459), method by method.

Simplifications:
* the width is a `Nat` (a negative width makes `2 ** width - 1` a float; see `Model/NoBits`);
* values and indices are ints, or None where a bound or an index may be left out (for other values see
  `Model/Values`);
* the step of a slice is ignored, as in the code;
* commented-out prints are dropped.
-/

namespace H800

/-- bitfield.py 95-98: the bit numbering scheme. -/
inductive Numbering where
  | lsb0 | lsb1 | msb0 | msb1
  deriving DecidableEq, Repr

/-- bitfield.py 95-98: the integer constant of each scheme. -/
def Numbering.code : Numbering → Nat
  | .lsb0 => 0 | .lsb1 => 1 | .msb0 => 2 | .msb1 => 3

/-- bitfield.py 101-102: the bit order. `msbLeft` is `BIT_ORDER_MSB_LEFT` = 0, `lsbLeft` is
`BIT_ORDER_LSB_LEFT` = `BIT_ORDER_MSB_RIGHT` = 1. -/
inductive Order where
  | msbLeft | lsbLeft
  deriving DecidableEq, Repr

/-- bitfield.py 104-122: the attributes of a `BitField`; `_maxval` is a function of the width. -/
structure BitField where
  width : Nat
  value : Int
  numbering : Numbering
  order : Order
  deriving DecidableEq, Repr

/-- A subscript: an index or a slice `[start:stop]` with optional bounds. -/
inductive Key where
  | idx (i : Int)
  | slice (start stop : Option Int)
  deriving DecidableEq, Repr

namespace BitField

/-- bitfield.py 88 -/
def MAX_WIDTH : Nat := 64

/-- bitfield.py 111, 129-132: `2 ** width - 1`. -/
def maxval (b : BitField) : Int := 2 ^ b.width - 1

/-- bitfield.py 95-98, 117-118: the numbering constants and their membership test. -/
def numberingOf : Int → Py Numbering
  | 0 => .ok .lsb0
  | 1 => .ok .lsb1
  | 2 => .ok .msb0
  | 3 => .ok .msb1
  | _ => .error .valueError

/-- bitfield.py 101-102, 121-122: the order constants and their membership test. -/
def orderOf : Int → Py Order
  | 0 => .ok .msbLeft
  | 1 => .ok .lsbLeft
  | _ => .error .valueError

/-- bitfield.py 104-122: the constructor. There is no check for negative values. -/
def init (value : Int) (width : Nat) (numbering order : Int) : Py BitField := do
  if width > MAX_WIDTH then throw .valueError
  if value > 2 ^ width - 1 then throw .valueError
  let n ← numberingOf numbering
  let o ← orderOf order
  return { width := width, value := value, numbering := n, order := o }

/-- bitfield.py 191-211 -/
def rindex (b : BitField) (index : Int) : Int :=
  match b.order, b.numbering with
  | .msbLeft, .lsb0 => b.width - (index + 1)
  | .msbLeft, .lsb1 => b.width - index
  | .msbLeft, .msb0 => index
  | .msbLeft, .msb1 => index - 1
  | .lsbLeft, .lsb0 => index
  | .lsbLeft, .lsb1 => index - 1
  | .lsbLeft, .msb0 => b.width - (index + 1)
  | .lsbLeft, .msb1 => b.width - index

/-- bitfield.py 226-246 -/
def vindex (b : BitField) (index : Int) : Int :=
  match b.order, b.numbering with
  | .msbLeft, .lsb0 => b.width - (index + 1)
  | .msbLeft, .lsb1 => b.width - index
  | .msbLeft, .msb0 => index
  | .msbLeft, .msb1 => index + 1
  | .lsbLeft, .lsb0 => index
  | .lsbLeft, .lsb1 => index + 1
  | .lsbLeft, .msb0 => b.width - (index + 1)
  | .lsbLeft, .msb1 => b.width - index

/-- bitfield.py 155-161 -/
def indices (b : BitField) : List Int :=
  (List.range b.width).map fun (i : Nat) => b.vindex i

/-- Python `l[0]`. -/
def first (l : List Int) : Py Int :=
  match l.head? with
  | some x => .ok x
  | none => .error .indexError

/-- Python `l[-1]`. -/
def last (l : List Int) : Py Int :=
  match l.getLast? with
  | some x => .ok x
  | none => .error .indexError

/-- bitfield.py 163-169 -/
def lsb (b : BitField) : Py Int :=
  if b.order = .lsbLeft then first b.indices else last b.indices

/-- bitfield.py 171-177 -/
def msb (b : BitField) : Py Int :=
  if b.order = .msbLeft then first b.indices else last b.indices

/-- bitfield.py 248-257 -/
def shift (b : BitField) (index : Int) : Int :=
  match b.order with
  | .msbLeft => b.width - index - 1
  | .lsbLeft => index

/-- bitfield.py 259-264 -/
def lsbIndex (b : BitField) (start stop : Int) : Int :=
  match b.order with
  | .msbLeft => max start stop
  | .lsbLeft => min start stop

/-- Using `None` where an int is needed (`None + 1`, `None < 0`, `None - 1`). -/
def needInt : Option Int → Py Int
  | some i => .ok i
  | none => .error .typeError

/-- bitfield.py 273-277. -/
def checkIndex (b : BitField) (index : Option Int) : Py Unit := do
  let i ← needInt index
  let r := b.rindex i
  if r < 0 ∨ r ≥ b.width then throw .valueError
  return ()

/-- bitfield.py 279-305. -/
def checkRange (b : BitField) (start stop : Option Int) : Py Unit := do
  b.checkIndex start
  b.checkIndex stop
  let s ← needInt start
  let e ← needInt stop
  match b.order with
  | .msbLeft =>
    if b.numbering = .lsb0 ∨ b.numbering = .lsb1 then
      if s < e then throw .valueError
    else
      if s > e then throw .valueError
  | .lsbLeft =>
    if b.numbering = .lsb0 ∨ b.numbering = .lsb1 then
      if s > e then throw .valueError
    else
      if s < e then throw .valueError

/-- bitfield.py 307-311 -/
def getRange (b : BitField) (start stop : Option Int) : Py (Int × Int) := do
  b.checkRange start stop
  let s ← needInt start
  let e ← needInt stop
  return (b.rindex s, b.rindex e)

/-- bitfield.py 313-320. `value > 2 ** width` and no check for negative values. -/
def checkValue (b : BitField) (value : Int) (width : Option Int) : Py Unit := do
  let w := width.getD b.width
  if w < 0 ∨ w > b.maxval then throw .valueError
  if value > pow2 w then throw .valueError
  return ()

/-- bitfield.py 322-333. The range check makes `width >= 1` here. -/
def bitmask (b : BitField) (start stop : Option Int) : Py Int := do
  b.checkRange start stop
  let (rstart, rend) ← b.getRange start stop
  let width := rend - rstart + 1
  let sh := if width = b.width then 0 else b.shift rend
  shl (pow2 width - 1) sh

/-- bitfield.py 343-354: `b[start:stop]`. -/
def getSlice (b : BitField) (start stop : Option Int) : Py Int := do
  b.checkRange start stop
  let (rstart, rend) ← b.getRange start stop
  let mask ← b.bitmask start stop
  let sh := b.shift (b.lsbIndex rstart rend)
  shr (Int.land b.value mask) sh

/-- bitfield.py 355-364: `b[index]`. -/
def getIndex (b : BitField) (index : Int) : Py Int := do
  b.checkIndex (some index)
  let r := b.rindex index
  let v ← shr b.value (b.shift r)
  return Int.land v 1

/-- bitfield.py 343-364 -/
def getitem (b : BitField) : Key → Py Int
  | .idx i => b.getIndex i
  | .slice s e => b.getSlice s e

/-- bitfield.py 367-382: the new value computed by `b[start:stop] = value`. -/
def newSlice (b : BitField) (start stop : Option Int) (value : Int) : Py Int := do
  b.checkRange start stop
  let (rstart, rend) ← b.getRange start stop
  let width := rend - rstart + 1
  b.checkValue value (some width)
  let mask ← b.bitmask start stop
  let sh := b.shift (b.lsbIndex rstart rend)
  let up ← shl value sh
  return Int.lor (Int.land b.value (b.maxval - mask)) up

/-- bitfield.py 383-395: the new value computed by `b[index] = value`. -/
def newIndex (b : BitField) (index value : Int) : Py Int := do
  b.checkIndex (some index)
  b.checkValue value (some 1)
  let r := b.rindex index
  let sh := b.shift r
  let _ ← shl 1 sh
  if value = 1 then
    let up ← shl value sh
    return Int.lor b.value up
  else
    let m ← shl 1 sh
    return Int.land b.value (b.maxval - m)

/-- bitfield.py 366-396: the assignment to `_value` comes last. -/
def setitem (b : BitField) (k : Key) (value : Int) : BitField × Py Unit :=
  match (match k with
    | .idx i => b.newIndex i value
    | .slice s e => b.newSlice s e value) with
  | .ok v => ({ b with value := v }, .ok ())
  | .error e => (b, .error e)

/-- An assignment `b[k] = x` on an object under construction, which is lost when it raises. -/
def assign (b : BitField) (k : Key) (x : Int) : Py BitField :=
  match b.setitem k x with
  | (b', .ok _) => .ok b'
  | (_, .error e) => .error e

/-- bitfield.py 149-153: the `value` setter. -/
def setValue (b : BitField) (value : Int) : BitField × Py Unit :=
  match b.checkValue value none with
  | .ok _ => ({ b with value := value }, .ok ())
  | .error e => (b, .error e)

/-- bitfield.py 407-409: `bin(v)[2:]` right-aligned in the width with '0' fill. For a negative
value `bin(v)` is `-0b...`, whose `[2:]` is `b...`. -/
def repr (b : BitField) : Str :=
  padLeft '0' b.width
    (if b.value < 0 then 'b' :: numeral 2 b.value.natAbs else numeral 2 b.value.natAbs)

/-- bitfield.py 411-417: `if index:` is false for both `None` and `0`. -/
def set (b : BitField) (index : Option Int) : BitField × Py Unit :=
  match index with
  | none => ({ b with value := b.maxval }, .ok ())
  | some i =>
    if i = 0 then ({ b with value := b.maxval }, .ok ())
    else match b.checkIndex (some i) with
      | .ok _ => b.setitem (.idx i) 1
      | .error e => (b, .error e)

/-- bitfield.py 419-425 -/
def clear (b : BitField) (index : Option Int) : BitField × Py Unit :=
  match index with
  | none => ({ b with value := 0 }, .ok ())
  | some i =>
    if i = 0 then ({ b with value := 0 }, .ok ())
    else match b.checkIndex (some i) with
      | .ok _ => b.setitem (.idx i) 0
      | .error e => (b, .error e)

/-- bitfield.py 427-430 -/
def isBit (b : BitField) (index value : Int) : Py Bool := do
  b.checkIndex (some index)
  let v ← b.getIndex index
  return v = value

/-- bitfield.py 432-434 -/
def isBitSet (b : BitField) (index : Int) : Py Bool := b.isBit index 1

/-- bitfield.py 436-438 -/
def isBitClr (b : BitField) (index : Int) : Py Bool := do
  let r ← b.isBitSet index
  return !r

/-- bitfield.py 440-451 -/
def isRange (b : BitField) (start stop : Option Int) (value : Int) : Py Bool := do
  b.checkRange start stop
  if ¬ (value = 0 ∨ value = 1) then throw .valueError
  let sub ← b.getSlice start stop
  let mask ← b.bitmask start stop
  if value = 0 then return (sub = 0) else return (sub = mask)

/-- bitfield.py 453-455 -/
def isRangeSet (b : BitField) (start stop : Option Int) : Py Bool := b.isRange start stop 1

/-- bitfield.py 457-459 -/
def isRangeClr (b : BitField) (start stop : Option Int) : Py Bool := do
  let r ← b.isRangeSet start stop
  return !r

end BitField

/-- The operations that change a bit-field. -/
inductive BfOp where
  | setitem (k : Key) (x : Int)
  | setValue (x : Int)
  | set (i : Option Int)
  | clear (i : Option Int)
  deriving DecidableEq, Repr

/-- One operation on a bit-field. -/
def BfOp.run (b : BitField) : BfOp → BitField × Py Unit
  | .setitem k x => b.setitem k x
  | .setValue x => b.setValue x
  | .set i => b.set i
  | .clear i => b.clear i

/-- A history: exceptions are caught by the caller, who goes on. -/
def bfRun (b : BitField) (ops : List BfOp) : BitField := ops.foldl (fun b op => (op.run b).1) b

end H800
