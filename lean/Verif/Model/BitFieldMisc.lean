import Verif.Model.Registers
import Verif.Model.Word

/-!
The remaining small methods of `h800/bitfield.py` and `h800/registers.py`, and Python's truth value of
an object.
-/

namespace H800

namespace BitField

/-- bitfield.py 266-271: `_msbIndex` (not used by the class). -/
def msbIndex (b : BitField) (start stop : Int) : Int :=
  match b.order with
  | .msbLeft => min start stop
  | .lsbLeft => max start stop

/-- bitfield.py 191-211: `_rindex(index, width)`, with the width given. No caller gives one. -/
def rindexFor (b : BitField) (index : Int) (width : Option Int) : Int :=
  let w := width.getD b.width
  match b.order, b.numbering with
  | .msbLeft, .lsb0 => w - (index + 1)
  | .msbLeft, .lsb1 => w - index
  | .msbLeft, .msb0 => index
  | .msbLeft, .msb1 => index - 1
  | .lsbLeft, .lsb0 => index
  | .lsbLeft, .lsb1 => index - 1
  | .lsbLeft, .msb0 => w - (index + 1)
  | .lsbLeft, .msb1 => w - index

/-- bitfield.py 226-246: `_vindex(index, width)`, with the width given. No caller gives one. -/
def vindexFor (b : BitField) (index : Int) (width : Option Int) : Int :=
  let w := width.getD b.width
  match b.order, b.numbering with
  | .msbLeft, .lsb0 => w - (index + 1)
  | .msbLeft, .lsb1 => w - index
  | .msbLeft, .msb0 => index
  | .msbLeft, .msb1 => index + 1
  | .lsbLeft, .lsb0 => index
  | .lsbLeft, .lsb1 => index + 1
  | .lsbLeft, .msb0 => w - (index + 1)
  | .lsbLeft, .msb1 => w - index

/-- bitfield.py 335-341: `_getBitValue` (not used by the class). `width=None` means the field's. -/
def getBitValue (b : BitField) (index value : Int) (width : Option Int) : Py Int := do
  b.checkValue value width
  let v ← shr value index
  return Int.land v 1

/-- bitfield.py 398-399: `__len__`. -/
def len (b : BitField) : Nat := b.width

/-- bitfield.py 401-402: `__int__`; 144-147 the same for `value`. -/
def toInt (b : BitField) : Int := b.value

/-- bitfield.py 404-405: `__index__`. -/
def index (b : BitField) : Int := b.value

end BitField

/-- Python's `bool(x)` of an object whose class has no `__bool__`: whether `len(x)` is not 0 if there
is a `__len__`, else True. -/
def truthOf (len : Option Nat) : Bool :=
  match len with
  | some n => n ≠ 0
  | none => true

/-- `bool(bitfield)`: the class has a `__len__` (bitfield.py 398-399) and no `__bool__`. -/
def BitField.truth (b : BitField) : Bool := truthOf (some b.len)

/-- `bool(register)`: the class has a `__len__` (registers.py 129-130) and no `__bool__`. -/
def Register.truth (r : Register) : Bool := truthOf (some r.len)

/-- `bool(word)`: the class has neither (word.py 36-60). -/
def Word.truth (_ : Word) : Bool := truthOf none

end H800
