import Verif.Model.Messages

/-!
`h800/bitfield.py` for a negative width, which the constructor does not refuse by itself. `2 ** width - 1`
is then a float. That it is an OverflowError if the width is beyond the range of floats (about -2^1024) is
left out.
-/

namespace H800

/-- bitfield.py 104-122: the attributes of a `BitField` with a negative width. The value is an int, or
none for the float `_maxval`, which `set` stores (417). -/
structure NoBits where
  width : Int
  value : Option Int
  numbering : Numbering
  order : Order
  deriving DecidableEq, Repr

namespace NoBits

/-- bitfield.py 111: the float `2 ** width - 1`. One of 53 digits is exact; from -54 on it is rounded
to -1. -/
def maxval (width : Int) : Rat := if width < -53 then -1 else 1 / 2 ^ width.natAbs - 1

/-- bitfield.py 191-211 -/
def rindex (b : NoBits) (index : Int) : Int :=
  match b.order, b.numbering with
  | .msbLeft, .lsb0 => b.width - (index + 1)
  | .msbLeft, .lsb1 => b.width - index
  | .msbLeft, .msb0 => index
  | .msbLeft, .msb1 => index - 1
  | .lsbLeft, .lsb0 => index
  | .lsbLeft, .lsb1 => index - 1
  | .lsbLeft, .msb0 => b.width - (index + 1)
  | .lsbLeft, .msb1 => b.width - index

/-- bitfield.py 273-277 -/
def checkIndex (b : NoBits) : Option Int → Py Unit
  | none => .error .typeError
  | some i => if b.rindex i < 0 ∨ b.rindex i ≥ b.width then .error .valueError else .ok ()

/-- bitfield.py 275-277: the text. -/
def checkIndexText (b : NoBits) (i : Int) : Option Str :=
  if b.rindex i < 0 ∨ b.rindex i ≥ b.width then
    some (py "Invalid index for " ++ pyStr b.width ++ py "-bit bit-field!")
  else none

/-- bitfield.py 279-281: the beginning of `_checkRange`; no call comes further. -/
def checkRange (b : NoBits) (start stop : Option Int) : Py Unit := do
  b.checkIndex start
  b.checkIndex stop

/-- bitfield.py 279-281: the text. -/
def checkRangeText (b : NoBits) : Option Int → Option Int → Option Str
  | none, _ => none
  | some s, none => b.checkIndexText s
  | some s, some e => (b.checkIndexText s).or (b.checkIndexText e)

/-- bitfield.py 343-356: the check at the beginning of `__getitem__` and (366-385) `__setitem__`; no call
comes further. -/
def checkKey (b : NoBits) : Key → Py Unit
  | .idx i => b.checkIndex (some i)
  | .slice s e => b.checkRange s e

/-- bitfield.py 343-356, 366-385: the text. -/
def checkKeyText (b : NoBits) : Key → Option Str
  | .idx i => b.checkIndexText i
  | .slice s e => b.checkRangeText s e

/-- bitfield.py 313-320: `_checkValue` with the width of the field. The second check, of
`value > 2 ** width`, would compare with a float. -/
def checkValue (b : NoBits) (value : Int) : Py Unit :=
  if b.width < 0 ∨ (b.width : Rat) > maxval b.width then .error .valueError
  else if (value : Rat) > 1 / 2 ^ b.width.natAbs then .error .valueError
  else .ok ()

/-- bitfield.py 316-317: the text. -/
def checkValueText (b : NoBits) : Option Str :=
  if b.width < 0 ∨ (b.width : Rat) > maxval b.width then
    some (py "Illegal bit-field width " ++ pyStr b.width ++ py "!")
  else none

/-- bitfield.py 144-147: `value`; `int` of the float cuts off the fraction. -/
def getValue (b : NoBits) : Int := b.value.getD (if b.width < -53 then -1 else 0)

/-- bitfield.py 149-153: the setter of `value`. -/
def setValue (b : NoBits) (value : Int) : NoBits × Py Unit :=
  match b.checkValue value with
  | .ok _ => ({ b with value := some value }, .ok ())
  | .error e => (b, .error e)

/-- bitfield.py 155-161: `range(0, width)` is empty. -/
def indices (_ : NoBits) : List Int := []

/-- bitfield.py 163-169 -/
def lsb (b : NoBits) : Py Int :=
  if b.order = .lsbLeft then BitField.first b.indices else BitField.last b.indices

/-- bitfield.py 171-177 -/
def msb (b : NoBits) : Py Int :=
  if b.order = .msbLeft then BitField.first b.indices else BitField.last b.indices

/-- bitfield.py 398-399: Python requires of `__len__` that it be not negative. -/
def len (b : NoBits) : Py Nat := if b.width < 0 then .error .valueError else .ok b.width.toNat

/-- bitfield.py 401-405: Python requires of `__int__` and `__index__` that they be ints. -/
def toInt (b : NoBits) : Py Int :=
  match b.value with
  | some v => .ok v
  | none => .error .typeError

/-- bitfield.py 407-409: `bin` of a float is TypeError; the minus sign of the width is taken for one
asking for signs, which strings do not have. -/
def repr (b : NoBits) : Py Str :=
  match b.value with
  | some _ => .error .valueError
  | none => .error .typeError

/-- bitfield.py 411-417 -/
def set (b : NoBits) (index : Option Int) : NoBits × Py Unit :=
  match index with
  | none => ({ b with value := none }, .ok ())
  | some i => if i = 0 then ({ b with value := none }, .ok ()) else (b, b.checkIndex (some i))

/-- bitfield.py 419-425 -/
def clear (b : NoBits) (index : Option Int) : NoBits × Py Unit :=
  match index with
  | none => ({ b with value := some 0 }, .ok ())
  | some i => if i = 0 then ({ b with value := some 0 }, .ok ()) else (b, b.checkIndex (some i))

/-- A call: the field afterwards, and how the call ends. `isBit`, `isRange` (427-451) and the methods that
call them begin with the checks. -/
def call (b : NoBits) : BfCall → NoBits × Py Unit
  | .get k => (b, b.checkKey k)
  | .put k _ => (b, b.checkKey k)
  | .setValue x => b.setValue x
  | .set i => b.set i
  | .clear i => b.clear i
  | .isBit i _ => (b, b.checkIndex (some i))
  | .isRange s e _ => (b, b.checkRange s e)

/-- The text of the ValueError of a call. -/
def callText (b : NoBits) : BfCall → Option Str
  | .get k => b.checkKeyText k
  | .put k _ => b.checkKeyText k
  | .setValue _ => b.checkValueText
  | .set i | .clear i =>
    match i with
    | none => none
    | some i => if i = 0 then none else b.checkIndexText i
  | .isBit i _ => b.checkIndexText i
  | .isRange s e _ => b.checkRangeText s e

/-- A history of calls; the caller catches exceptions. -/
def after (b : NoBits) (calls : List BfCall) : NoBits := calls.foldl (fun b c => (b.call c).1) b

end NoBits

/-- bitfield.py 104-122: the constructor, with any width. -/
def BitField.make (value width numbering order : Int) : Py (BitField ⊕ NoBits) :=
  if width < 0 then
    if (value : Rat) > NoBits.maxval width then .error .valueError
    else
      match numberingOf numbering with
      | .error e => .error e
      | .ok n =>
        match orderOf order with
        | .error e => .error e
        | .ok o => .ok (.inr ⟨width, some value, n, o⟩)
  else
    match BitField.init value width.toNat numbering order with
    | .error e => .error e
    | .ok b => .ok (.inl b)

/-- The width of a bit-field. -/
def anyWidth : BitField ⊕ NoBits → Int
  | .inl b => b.width
  | .inr b => b.width

end H800
