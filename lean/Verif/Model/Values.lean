import Verif.Model.Registers
import Verif.Model.Memory
import Verif.Model.Messages

/-!
The classes of `h800/bitfield.py`, `h800/word.py`, `h800/registers.py` and `h800/memory.py` given values
and indices that are not ints. The rest of the model is for ints only (a bool is its int); on ints the
functions of this file agree with it (C213_agrees, C214_agrees).
-/

namespace H800

/-- A float. Which rational numbers are values of floats is left open. -/
inductive Flt where
  | fin (q : Rat)
  | inf
  | ninf
  | nan
  deriving DecidableEq, Repr

/-- The operations on floats whose results are rounded. They are parameters: nothing depends on how
it is done. -/
structure FloatOps where
  /-- The float for the exact result of an addition or subtraction. -/
  round : Rat → Flt
  /-- `2 ** x` -/
  pow2 : Flt → Flt

/-- A Python value: an int, a float, or an object that can neither be compared with numbers nor be added
to them (a string, None, a list, a bit-field), of which the truth value is known. -/
inductive PyVal where
  | int (n : Int)
  | float (x : Flt)
  | other (truth : Bool)
  deriving DecidableEq, Repr

namespace Flt

/-- `x < y` -/
def lt : Flt → Flt → Bool
  | .nan, _ | _, .nan => false
  | .fin p, .fin q => p < q
  | .ninf, .ninf => false
  | .ninf, _ => true
  | _, .inf => true
  | _, _ => false

/-- `x <= y` -/
def le : Flt → Flt → Bool
  | .nan, _ | _, .nan => false
  | x, y => !lt y x

/-- `int(x)`: the fraction is cut off. -/
def toInt : Flt → Py Int
  | .fin q => .ok (q.num.tdiv q.den)
  | .nan => .error .valueError
  | .inf | .ninf => .error .overflowError

/-- `x + n` -/
def add (F : FloatOps) (n : Int) : Flt → Flt
  | .fin q => F.round (q + n)
  | x => x

/-- `n - x` -/
def rsub (F : FloatOps) (n : Int) : Flt → Flt
  | .fin q => F.round (n - q)
  | .inf => .ninf
  | .ninf => .inf
  | .nan => .nan

/-- `x - y` -/
def sub (F : FloatOps) : Flt → Flt → Flt
  | .nan, _ | _, .nan => .nan
  | .fin p, .fin q => F.round (p - q)
  | .inf, .inf | .ninf, .ninf => .nan
  | .inf, _ | _, .ninf => .inf
  | .ninf, _ | _, .inf => .ninf

end Flt

namespace PyVal

/-- None. -/
def none : PyVal := .other false

/-- An optional int. -/
def ofOpt : Option Int → PyVal
  | .none => PyVal.none
  | some n => .int n

/-- A number as it is compared: ints and floats are compared exactly. -/
def number : PyVal → Py Flt
  | .int n => .ok (.fin n)
  | .float x => .ok x
  | .other _ => .error .typeError

/-- `v < w` (and `w > v`) -/
def lt (v w : PyVal) : Py Bool := do
  let x ← v.number
  let y ← w.number
  return x.lt y

/-- `v >= w` -/
def ge (v w : PyVal) : Py Bool := do
  let x ← v.number
  let y ← w.number
  return y.le x

/-- `v == n` -/
def eqInt : PyVal → Int → Bool
  | .int m, n => m = n
  | .float (.fin q), n => q = n
  | _, _ => false

/-- `bool(v)` -/
def truth : PyVal → Bool
  | .int n => n ≠ 0
  | .float x => x ≠ .fin 0
  | .other t => t

/-- `int(v)` of a number. -/
def toInt : PyVal → Py Int
  | .int n => .ok n
  | .float x => x.toInt
  | .other _ => .error .typeError

/-- `v + n`; `v - n` is the same with `-n`. -/
def add (F : FloatOps) (n : Int) : PyVal → Py PyVal
  | .int m => .ok (.int (m + n))
  | .float x => .ok (.float (x.add F n))
  | .other _ => .error .typeError

/-- `n - v` -/
def rsub (F : FloatOps) (n : Int) : PyVal → Py PyVal
  | .int m => .ok (.int (n - m))
  | .float x => .ok (.float (x.rsub F n))
  | .other _ => .error .typeError

/-- `v - w` -/
def sub (F : FloatOps) : PyVal → PyVal → Py PyVal
  | .int m, .int n => .ok (.int (m - n))
  | v, w => do
    let x ← v.number
    let y ← w.number
    return .float (x.sub F y)

/-- `2 ** v` for an int that is not negative or a float. -/
def pow2 (F : FloatOps) : PyVal → Py PyVal
  | .int n => .ok (.int (H800.pow2 n))
  | .float x => .ok (.float (F.pow2 x))
  | .other _ => .error .typeError

/-- `v << w`: TypeError unless both are ints. -/
def shl : PyVal → PyVal → Py Int
  | .int m, .int n => H800.shl m n
  | _, _ => .error .typeError

/-- `v >> w`: TypeError unless both are ints. -/
def shr : PyVal → PyVal → Py Int
  | .int m, .int n => H800.shr m n
  | _, _ => .error .typeError

/-- `max(v, w)`: the first one unless the second one is greater. -/
def max (v w : PyVal) : Py PyVal := do
  if ← v.lt w then return w else return v

/-- `min(v, w)`: the first one unless the second one is less. -/
def min (v w : PyVal) : Py PyVal := do
  if ← w.lt v then return w else return v

end PyVal

/-- A subscript: an index or a slice. -/
inductive KeyV where
  | idx (i : PyVal)
  | slice (start stop : PyVal)
  deriving DecidableEq, Repr

namespace BitField

/-- bitfield.py 191-211 -/
def rindexV (F : FloatOps) (b : BitField) (index : PyVal) : Py PyVal :=
  match b.order, b.numbering with
  | .msbLeft, .lsb0 => do (← index.add F 1).rsub F b.width
  | .msbLeft, .lsb1 => index.rsub F b.width
  | .msbLeft, .msb0 => .ok index
  | .msbLeft, .msb1 => index.add F (-1)
  | .lsbLeft, .lsb0 => .ok index
  | .lsbLeft, .lsb1 => index.add F (-1)
  | .lsbLeft, .msb0 => do (← index.add F 1).rsub F b.width
  | .lsbLeft, .msb1 => index.rsub F b.width

/-- bitfield.py 248-257 -/
def shiftV (F : FloatOps) (b : BitField) (index : PyVal) : Py PyVal :=
  match b.order with
  | .msbLeft => do (← index.rsub F b.width).add F (-1)
  | .lsbLeft => .ok index

/-- bitfield.py 259-264 -/
def lsbIndexV (b : BitField) (start stop : PyVal) : Py PyVal :=
  match b.order with
  | .msbLeft => start.max stop
  | .lsbLeft => start.min stop

/-- bitfield.py 273-277 -/
def checkIndexV (F : FloatOps) (b : BitField) (index : PyVal) : Py Unit := do
  let r ← b.rindexV F index
  if ← r.lt (.int 0) then throw .valueError
  if ← r.ge (.int b.width) then throw .valueError
  return ()

/-- bitfield.py 279-305 -/
def checkRangeV (F : FloatOps) (b : BitField) (start stop : PyVal) : Py Unit := do
  b.checkIndexV F start
  b.checkIndexV F stop
  let wrong ← match b.order, b.numbering with
    | .msbLeft, .lsb0 | .msbLeft, .lsb1 => start.lt stop
    | .msbLeft, .msb0 | .msbLeft, .msb1 => stop.lt start
    | .lsbLeft, .lsb0 | .lsbLeft, .lsb1 => stop.lt start
    | .lsbLeft, .msb0 | .lsbLeft, .msb1 => start.lt stop
  if wrong then throw .valueError

/-- bitfield.py 307-311 -/
def getRangeV (F : FloatOps) (b : BitField) (start stop : PyVal) : Py (PyVal × PyVal) := do
  b.checkRangeV F start stop
  return (← b.rindexV F start, ← b.rindexV F stop)

/-- bitfield.py 313-320, with the width given. -/
def checkValueV (F : FloatOps) (b : BitField) (value width : PyVal) : Py Unit := do
  if ← width.lt (.int 0) then throw .valueError
  if ← (PyVal.int b.maxval).lt width then throw .valueError
  if ← (← width.pow2 F).lt value then throw .valueError
  return ()

/-- bitfield.py 322-333. If the width is a float, so is `2 ** width - 1`, and it cannot be shifted. -/
def bitmaskV (F : FloatOps) (b : BitField) (start stop : PyVal) : Py Int := do
  b.checkRangeV F start stop
  let (rstart, rend) ← b.getRangeV F start stop
  let width ← (← rend.sub F rstart).add F 1
  let sh ← if width.eqInt b.width then pure (PyVal.int 0) else b.shiftV F rend
  PyVal.shl (← (← width.pow2 F).add F (-1)) sh

/-- bitfield.py 343-354: `b[start:stop]`. -/
def getSliceV (F : FloatOps) (b : BitField) (start stop : PyVal) : Py Int := do
  b.checkRangeV F start stop
  let (rstart, rend) ← b.getRangeV F start stop
  let mask ← b.bitmaskV F start stop
  let sh ← b.shiftV F (← b.lsbIndexV rstart rend)
  PyVal.shr (.int (Int.land b.value mask)) sh

/-- bitfield.py 355-364: `b[index]`. -/
def getIndexV (F : FloatOps) (b : BitField) (index : PyVal) : Py Int := do
  b.checkIndexV F index
  let r ← b.rindexV F index
  let v ← PyVal.shr (.int b.value) (← b.shiftV F r)
  return Int.land v 1

/-- bitfield.py 343-364 -/
def getitemV (F : FloatOps) (b : BitField) : KeyV → Py Int
  | .idx i => b.getIndexV F i
  | .slice s e => b.getSliceV F s e

/-- bitfield.py 367-382: the new value computed by `b[start:stop] = value`. -/
def newSliceV (F : FloatOps) (b : BitField) (start stop value : PyVal) : Py Int := do
  b.checkRangeV F start stop
  let (rstart, rend) ← b.getRangeV F start stop
  let width ← (← rend.sub F rstart).add F 1
  b.checkValueV F value width
  let mask ← b.bitmaskV F start stop
  let sh ← b.shiftV F (← b.lsbIndexV rstart rend)
  let up ← PyVal.shl value sh
  return Int.lor (Int.land b.value (b.maxval - mask)) up

/-- bitfield.py 383-395: the new value computed by `b[index] = value`. -/
def newIndexV (F : FloatOps) (b : BitField) (index value : PyVal) : Py Int := do
  b.checkIndexV F index
  b.checkValueV F value (.int 1)
  let r ← b.rindexV F index
  let sh ← b.shiftV F r
  let m ← PyVal.shl (.int 1) sh
  if value.eqInt 1 then
    let up ← PyVal.shl value sh
    return Int.lor b.value up
  else return Int.land b.value (b.maxval - m)

/-- bitfield.py 366-396 -/
def setitemV (F : FloatOps) (b : BitField) (k : KeyV) (value : PyVal) : BitField × Py Unit :=
  match (match k with
    | .idx i => b.newIndexV F i value
    | .slice s e => b.newSliceV F s e value) with
  | .ok v => ({ b with value := v }, .ok ())
  | .error e => (b, .error e)

/-- An assignment `b[k] = x` on an object under construction, which is lost when it raises. -/
def assignV (F : FloatOps) (b : BitField) (k : KeyV) (x : PyVal) : Py BitField :=
  match b.setitemV F k x with
  | (b', .ok _) => .ok b'
  | (_, .error e) => .error e

/-- bitfield.py 149-153: the `value` setter. -/
def setValueV (F : FloatOps) (b : BitField) (value : PyVal) : BitField × Py Unit :=
  match (do b.checkValueV F value (.int b.width); value.toInt) with
  | .ok v => ({ b with value := v }, .ok ())
  | .error e => (b, .error e)

/-- bitfield.py 411-417 -/
def setV (F : FloatOps) (b : BitField) (index : PyVal) : BitField × Py Unit :=
  if index.truth then
    match b.checkIndexV F index with
    | .ok _ => b.setitemV F (.idx index) (.int 1)
    | .error e => (b, .error e)
  else ({ b with value := b.maxval }, .ok ())

/-- bitfield.py 419-425 -/
def clearV (F : FloatOps) (b : BitField) (index : PyVal) : BitField × Py Unit :=
  if index.truth then
    match b.checkIndexV F index with
    | .ok _ => b.setitemV F (.idx index) (.int 0)
    | .error e => (b, .error e)
  else ({ b with value := 0 }, .ok ())

/-- bitfield.py 427-430 -/
def isBitV (F : FloatOps) (b : BitField) (index value : PyVal) : Py Bool := do
  b.checkIndexV F index
  let v ← b.getIndexV F index
  return value.eqInt v

/-- bitfield.py 440-451 -/
def isRangeV (F : FloatOps) (b : BitField) (start stop value : PyVal) : Py Bool := do
  b.checkRangeV F start stop
  if !(value.eqInt 0 || value.eqInt 1) then throw .valueError
  let sub ← b.getSliceV F start stop
  let mask ← b.bitmaskV F start stop
  if value.eqInt 0 then return (sub = 0) else return (sub = mask)

end BitField

/-- The calls on a bit-field, with any values. -/
inductive BfCallV where
  | get (k : KeyV)
  | put (k : KeyV) (x : PyVal)
  | setValue (x : PyVal)
  | set (i : PyVal)
  | clear (i : PyVal)
  | isBit (i x : PyVal)
  | isRange (s e x : PyVal)
  deriving DecidableEq, Repr

/-- A call: the field afterwards, and how the call ends. -/
def BfCallV.run (F : FloatOps) (b : BitField) : BfCallV → BitField × Py Unit
  | .get k => (b, (b.getitemV F k).map fun _ => ())
  | .put k x => b.setitemV F k x
  | .setValue x => b.setValueV F x
  | .set i => b.setV F i
  | .clear i => b.clearV F i
  | .isBit i x => (b, (b.isBitV F i x).map fun _ => ())
  | .isRange s e x => (b, (b.isRangeV F s e x).map fun _ => ())

/-- A bit-field whose `_value` is a float: the constructor (bitfield.py 112) stores the value as it is. -/
structure FloatField where
  width : Nat
  value : Flt
  numbering : Numbering
  order : Order
  deriving DecidableEq, Repr

/-- bitfield.py 104-122: the constructor. -/
def BitField.initV (value : PyVal) (width : Nat) (numbering order : Int) :
    Py (BitField ⊕ FloatField) := do
  if width > BitField.MAX_WIDTH then throw .valueError
  if ← (PyVal.int (2 ^ width - 1)).lt value then throw .valueError
  let n ← BitField.numberingOf numbering
  let o ← BitField.orderOf order
  match value with
  | .int v => return .inl ⟨width, v, n, o⟩
  | .float x => return .inr ⟨width, x, n, o⟩
  | .other _ => throw .typeError

namespace FloatField

/-- The field with an int for its value: all the checks are the same. -/
def plain (b : FloatField) (v : Int) : BitField := ⟨b.width, v, b.numbering, b.order⟩

/-- A call that uses the bits of `_value` after all checks (bitfield.py 354, 364, 377, 390, 392): shifting
and masking a float is TypeError. -/
def useBits {α : Type} : Py α → Py Unit
  | .error e => .error e
  | .ok _ => .error .typeError

/-- A call: the field afterwards, and how the call ends. -/
def call (F : FloatOps) (b : FloatField) : BfCallV → (BitField ⊕ FloatField) × Py Unit
  | .get k => (.inr b, useBits ((b.plain 0).getitemV F k))
  | .put k x => (.inr b, useBits ((b.plain 0).setitemV F k x).2)
  | .setValue x =>
    match (b.plain 0).setValueV F x with
    | (b', .ok _) => (.inl b', .ok ())
    | (_, .error e) => (.inr b, .error e)
  | .set i =>
    if i.truth then (.inr b, useBits ((b.plain 0).setV F i).2)
    else (.inl (b.plain (2 ^ b.width - 1)), .ok ())
  | .clear i =>
    if i.truth then (.inr b, useBits ((b.plain 0).clearV F i).2)
    else (.inl (b.plain 0), .ok ())
  | .isBit i x => (.inr b, useBits ((b.plain 0).isBitV F i x))
  | .isRange s e x => (.inr b, useBits ((b.plain 0).isRangeV F s e x))

/-- bitfield.py 144-147: `value`. -/
def getValue (b : FloatField) : Py Int := b.value.toInt

/-- bitfield.py 401-405, 407-409: `int(b)`, `operator.index(b)` and `repr(b)`; `__int__` and `__index__`
must return ints, and `bin` takes ints only. -/
def toInt (_ : FloatField) : Py Int := .error .typeError

end FloatField

namespace Word

/-- word.py 40, 53: whether a value is refused by the check. -/
def refusesV (value : PyVal) : Py Bool := do
  if ← value.lt (.int 0) then return true
  (PyVal.int (2 ^ 48 - 1)).lt value

/-- word.py 39-45: `Word(data)`. -/
def initV (F : FloatOps) (data : PyVal) : Py Word := do
  if ← refusesV data then throw .valueError
  let b ← BitField.init 0 48 3 0
  let b ← b.assignV F (.slice (.int 1) (.int 48)) data
  return ⟨b⟩

/-- word.py 51-55: the `value` setter. -/
def setValueV (F : FloatOps) (w : Word) (v : PyVal) : Word × Py Unit :=
  match refusesV v with
  | .error e => (w, .error e)
  | .ok true => (w, .error .valueError)
  | .ok false =>
    let (b, r) := w.data.setValueV F v
    (⟨b⟩, r)

end Word

namespace InstructionWord

/-- word.py 70-73 and the slices in 75-104. -/
def keyV : IField → KeyV
  | .command => .slice (.int 1) (.int 12)
  | .a => .slice (.int 13) (.int 24)
  | .b => .slice (.int 25) (.int 36)
  | .c => .slice (.int 37) (.int 48)

/-- word.py 67-73: `InstructionWord(command, a, b, c)`. -/
def initV (F : FloatOps) (command a b c : PyVal) : Py Word := do
  let w ← Word.init 0
  let d ← w.data.assignV F (keyV .command) command
  let d ← d.assignV F (keyV .a) a
  let d ← d.assignV F (keyV .b) b
  let d ← d.assignV F (keyV .c) c
  return ⟨d⟩

/-- word.py 79-81, 87-89, 95-97, 103-104: the field setters. -/
def setV (F : FloatOps) (w : Word) (f : IField) (v : PyVal) : Word × Py Unit :=
  let (b, r) := w.data.setitemV F (keyV f) v
  (⟨b⟩, r)

end InstructionWord

namespace Register

/-- registers.py 84, 104: whether a value is refused by the check. -/
def refusesV (value : PyVal) (width : Nat) : Py Bool := do
  if ← value.lt (.int 0) then return true
  (PyVal.int (2 ^ width - 1)).lt value

/-- registers.py 83-96, for the widths that are not negative. -/
def initV (F : FloatOps) (data : PyVal) (name : Option Str) (width : Nat) : Py Register := do
  if ← refusesV data width then throw .valueError
  if name.getD [] ≠ [] ∧ name.getD [] ∉ REGISTER_NAMES then throw .valueError
  if width ≠ 16 ∧ width ≠ 24 then throw .valueError
  let b ← BitField.init 0 width 3 0
  let b ← b.assignV F (.slice (.int 1) (.int width)) data
  return { data := b, name := name, width := width }

/-- registers.py 102-107: the `value` setter. -/
def setValueV (F : FloatOps) (r : Register) (v : PyVal) : Register × Py Unit :=
  match refusesV v r.width with
  | .error e => (r, .error e)
  | .ok true => (r, .error .valueError)
  | .ok false =>
    let (b, x) := r.data.setitemV F (.slice (.int 1) (.int r.width)) v
    ({ r with data := b }, x)

/-- registers.py 123-127 -/
def setitemV (F : FloatOps) (r : Register) (k : KeyV) (v : PyVal) : Register × Py Unit :=
  let (b, x) := r.data.setitemV F k v
  ({ r with data := b }, x)

end Register

namespace MemoryBank

/-- memory.py 60-61: `bank[a] = value`, for an address that is an int. -/
def setV (F : FloatOps) (m : MemoryBank) (a : Int) (v : PyVal) : MemoryBank × Py Unit :=
  match m.word a with
  | .error e => (m, .error e)
  | .ok w =>
    match w.setValueV F v with
    | (w', r) => ({ m with words := m.words.set a.toNat w' }, r)

/-- memory.py 58-59: the loop of a slice write; it stops at the first exception. -/
def setListV (F : FloatOps) (m : MemoryBank) (v : PyVal) : List Int → MemoryBank × Py Unit
  | [] => (m, .ok ())
  | a :: as =>
    match m.setV F a v with
    | (m', .ok _) => m'.setListV F v as
    | (m', .error e) => (m', .error e)

/-- memory.py 57-59: `bank[start:stop] = value`; `range` takes only ints (bit-fields as
bounds are in `Model/FieldKeys.lean`). -/
def setSliceV (F : FloatOps) (m : MemoryBank) (start stop v : PyVal) : MemoryBank × Py Unit :=
  match start, stop with
  | .int s, .int e => m.setListV F v (pyRange s e)
  | _, _ => (m, .error .typeError)

end MemoryBank

end H800
