import Verif.Model.Instruction
import Verif.Model.Registers
import Verif.Model.Memory
import Verif.Model.Repr

/-!
The texts of the ValueErrors that `h800/bitfield.py`, `word.py`, `instruction.py`, `registers.py` and
`memory.py` raise. Each function follows the one of the same name without `Text` up to the point where it
raises: `some t` is ValueError with the text `t`, and `none` is a call that returns or ends with an
exception of Python itself (`None` used as an int, an unknown key of a dict), whose text is left out.
-/

namespace H800

namespace BitField

/-- bitfield.py 104-122: the constructor. -/
def initText (value : Int) (width : Nat) (numbering order : Int) : Option Str :=
  if width > MAX_WIDTH then some (py "Width is greater than maximum allowed!")
  else if value > 2 ^ width - 1 then
    some (py "Value is greater than maximum allowed by bit-field width!")
  else
    match numberingOf numbering with
    | .error _ => some (py "Invalid bit numbering scheme!")
    | .ok _ =>
      match orderOf order with
      | .error _ => some (py "Invalid bit order, must be left or right!")
      | .ok _ => none

/-- bitfield.py 273-277 -/
def checkIndexText (b : BitField) (index : Int) : Option Str :=
  let r := b.rindex index
  if r < 0 ∨ r ≥ b.width then
    some (py "Invalid index for " ++ pyStr b.width ++ py "-bit bit-field!")
  else none

/-- bitfield.py 287-288, 292-293, 299-300, 304-305: the same text in all four. -/
def RANGE_TEXT : Str := py "Invalid bit range for MSB...LSB bit-field!"

/-- bitfield.py 282-305: the order of the bounds. -/
def checkOrderText (b : BitField) (s e : Int) : Option Str :=
  match b.order with
  | .msbLeft =>
    if b.numbering = .lsb0 ∨ b.numbering = .lsb1 then
      if s < e then some RANGE_TEXT else none
    else
      if s > e then some RANGE_TEXT else none
  | .lsbLeft =>
    if b.numbering = .lsb0 ∨ b.numbering = .lsb1 then
      if s > e then some RANGE_TEXT else none
    else
      if s < e then some RANGE_TEXT else none

/-- bitfield.py 279-305. A bound that is None is a TypeError. -/
def checkRangeText (b : BitField) : Option Int → Option Int → Option Str
  | none, _ => none
  | some s, none => b.checkIndexText s
  | some s, some e => (b.checkIndexText s).or ((b.checkIndexText e).or (b.checkOrderText s e))

/-- bitfield.py 313-320. Line 317 shows the width of the whole field. -/
def checkValueText (b : BitField) (value : Int) (width : Option Int) : Option Str :=
  let w := width.getD b.width
  if w < 0 ∨ w > b.maxval then some (py "Illegal bit-field width " ++ pyStr b.width ++ py "!")
  else if value > pow2 w then
    some (py "Value is greater than allowed for " ++ pyStr w ++ py "-bit field!")
  else none

/-- bitfield.py 343-364: `b[k]`. -/
def getitemText (b : BitField) : Key → Option Str
  | .idx i => b.checkIndexText i
  | .slice s e => b.checkRangeText s e

/-- bitfield.py 366-396: `b[k] = value`. -/
def setitemText (b : BitField) (k : Key) (value : Int) : Option Str :=
  match k with
  | .idx i => (b.checkIndexText i).or (b.checkValueText value (some 1))
  | .slice (some s) (some e) =>
    (b.checkRangeText (some s) (some e)).or
      (b.checkValueText value (some (b.rindex e - b.rindex s + 1)))
  | .slice s e => b.checkRangeText s e

/-- bitfield.py 149-153: `b.value = value`. -/
def setValueText (b : BitField) (value : Int) : Option Str := b.checkValueText value none

/-- bitfield.py 411-417 (`x` = 1), 419-425 (`x` = 0). -/
def fillText (b : BitField) (x : Int) (index : Option Int) : Option Str :=
  match index with
  | none => none
  | some i => if i = 0 then none else (b.checkIndexText i).or (b.setitemText (.idx i) x)

/-- bitfield.py 427-438: `isBit`, `isBitSet`, `isBitClr`. -/
def isBitText (b : BitField) (index : Int) : Option Str := b.checkIndexText index

/-- bitfield.py 440-459: `isRange`, `isRangeSet`, `isRangeClr`. -/
def isRangeText (b : BitField) (start stop : Option Int) (value : Int) : Option Str :=
  match start, stop with
  | some s, some e =>
    (b.checkRangeText (some s) (some e)).or
      (if ¬ (value = 0 ∨ value = 1) then some (py "Bit-field Value must be 0 or 1!") else none)
  | s, e => b.checkRangeText s e

end BitField

/-- The calls that a client can make on a bit-field and that can raise. -/
inductive BfCall where
  | get (k : Key)
  | put (k : Key) (x : Int)
  | setValue (x : Int)
  | set (i : Option Int)
  | clear (i : Option Int)
  | isBit (i x : Int)
  | isRange (s e : Option Int) (x : Int)
  deriving DecidableEq, Repr

/-- How a call ends. -/
def BfCall.ends (b : BitField) : BfCall → Py Unit
  | .get k => (b.getitem k).map fun _ => ()
  | .put k x => (b.setitem k x).2
  | .setValue x => (b.setValue x).2
  | .set i => (b.set i).2
  | .clear i => (b.clear i).2
  | .isBit i x => (b.isBit i x).map fun _ => ()
  | .isRange s e x => (b.isRange s e x).map fun _ => ()

/-- The text of the ValueError of a call. -/
def BfCall.text (b : BitField) : BfCall → Option Str
  | .get k => b.getitemText k
  | .put k x => b.setitemText k x
  | .setValue x => b.setValueText x
  | .set i => b.fillText 1 i
  | .clear i => b.fillText 0 i
  | .isBit i _ => b.isBitText i
  | .isRange s e x => b.isRangeText s e x

namespace Instruction

/-- instruction.py 131-136 -/
def checkSequenceText (sequence paddr : Option Int) : Option Str :=
  match sequence with
  | none => none
  | some s =>
    if truthy paddr then some (py "Cannot specify sequence and peripheral address!")
    else if notBool s then some (py "Sequence must be boolean!")
    else none

/-- instruction.py 137-146 -/
def checkMaskText (type : Str) (mask a b c paddr : Option Int) : Option Str :=
  match mask with
  | none => none
  | some m =>
    if type ≠ py "maskable" then some (py "Mask supplied to an instruction that is not maskable!")
    else if a.isSome ∨ b.isSome ∨ c.isSome ∨ paddr.isSome then
      some (py "Cannot specify A, B, C, or peripheral address with mask!")
    else if m < 0 ∨ m > 31 then some (py "Mask must be in the range 0..31!")
    else none

/-- instruction.py 147-149, 150-152, 153-155: `a`, `b`, `c`. -/
def checkBitText (name : Str) (x : Option Int) : Option Str :=
  match x with
  | none => none
  | some v => if notBool v then some (name ++ py " must be boolean!") else none

/-- instruction.py 156-164 -/
def checkPaddrText (sequence mask a b c paddr : Option Int) : Option Str :=
  match paddr with
  | none => none
  | some p =>
    if sequence.isSome ∨ mask.isSome ∨ a.isSome ∨ b.isSome ∨ c.isSome then
      some (py "Cannot specify sequence, mask, A, B, or C with peripheral address!")
    else if p < 0 ∨ p > 63 then some (py "Peripheral address must be in the range 0..63!")
    else none

/-- instruction.py 165-167 and 168-170: bit 7 and bits 2-3 of the opcode. -/
def checkOptText (x : Option Int) (limit : Int) (text : Str) : Option Str :=
  match x with
  | none => none
  | some v => if v < 0 ∨ v > limit then some text else none

/-- instruction.py 129-172: `_check`. After it the constructor assigns operands to parts of the field,
which these always fit. -/
def initText (o : Opcode) (sequence mask a b c paddr : Option Int) : Option Str :=
  (checkSequenceText sequence paddr).or <|
  (checkMaskText o.type mask a b c paddr).or <|
  (checkBitText (py "A") a).or <|
  (checkBitText (py "B") b).or <|
  (checkBitText (py "C") c).or <|
  (checkPaddrText sequence mask a b c paddr).or <|
  (checkOptText o.b7 1 (py "Bit 7 must be in the range 0..1!")).or <|
  (checkOptText o.b23 3 (py "Bits 2-3 must be in the range 0..3!")).or <|
  if o.op < 0 ∨ o.op > 31 then some (py "Opcode must be in the range 0..31!") else none

end Instruction

/-- instruction.py 210-216: `Constant(mnemonic, data)`, whose text speaks of the opcode. -/
def Constant.initText (data : Int) : Option Str :=
  if data < 0 ∨ data > 2 ^ 48 - 1 then
    some (py "Opcode must be in the range 0.." ++ pyStr (2 ^ 48 - 1) ++ py "!")
  else none

namespace Word

/-- word.py 41, 54 -/
def VALUE_TEXT : Str := py "Invalid value for 48-bit word!"

/-- word.py 39-45: `Word(data)`. The data checked always fit the 48 bits they are assigned to. -/
def initText (data : Int) : Option Str :=
  if data < 0 ∨ data > 2 ^ 48 - 1 then some VALUE_TEXT else none

/-- word.py 51-55: the `value` setter. -/
def setValueText (w : Word) (v : Int) : Option Str :=
  if v < 0 ∨ v > 2 ^ 48 - 1 then some VALUE_TEXT else w.data.setValueText v

end Word

/-- word.py 75-77, 83-85, 91-93, 99-101: the field getters. -/
def InstructionWord.getText (w : Word) (f : IField) : Option Str := w.data.getitemText f.key

/-- word.py 79-81, 87-89, 95-97, 103-104: the field setters. -/
def InstructionWord.setText (w : Word) (f : IField) (v : Int) : Option Str :=
  w.data.setitemText f.key v

/-- word.py 67-73: the assignments of the constructor that are still to be made on the field `d`. -/
def InstructionWord.fillText : List (IField × Int) → BitField → Option Str
  | [], _ => none
  | (f, v) :: rest, d =>
    match d.assign f.key v with
    | .error _ => d.setitemText f.key v
    | .ok d' => fillText rest d'

/-- word.py 67-73: `InstructionWord(command, a, b, c)`. -/
def InstructionWord.initText (command a b c : Int) : Option Str :=
  match Word.init 0 with
  | .error _ => Word.initText 0
  | .ok w => fillText [(.command, command), (.a, a), (.b, b), (.c, c)] w.data

/-- memory.py 20-22 -/
def MemoryBank.checkValueText (v : Int) : Option Str :=
  if v < 0 ∨ v > 2 ^ MEMORY_WIDTH - 1 then
    some (py "Invalid value for " ++ pyStr MEMORY_WIDTH ++ py "-bit word!")
  else none

/-- memory.py 24-26 -/
def MemoryBank.checkAddressText (address : Int) : Option Str :=
  if address < 0 ∨ address > 2047 then some (py "Invalid value for address!") else none

/-- memory.py 56-61: `bank[key] = value`, with the setter of the word. -/
def MemoryBank.setText (m : MemoryBank) (a v : Int) : Option Str :=
  match m.word a with
  | .error _ => none
  | .ok w => w.setValueText v

/-- memory.py 58-59: the loop of a slice write; it stops at the first exception. -/
def MemoryBank.setListText (m : MemoryBank) (v : Int) : List Int → Option Str
  | [] => none
  | a :: as =>
    match m.set a v with
    | (m', .ok _) => m'.setListText v as
    | (_, .error _) => m.setText a v

/-- memory.py 57-59: `bank[start:stop] = value`. -/
def MemoryBank.setSliceText (m : MemoryBank) (start stop : Option Int) (v : Int) : Option Str :=
  match start, stop with
  | some s, some e => m.setListText v (pyRange s e)
  | _, _ => none

/-- registers.py 52-57 -/
def registerNameText (number : Int) : Option Str :=
  match nameOf number REGISTERS with
  | some _ => none
  | none => some (py "Invalid register number " ++ pyStr number ++ py "!")

/-- registers.py 60-68 -/
def registerAliasText (number : Int) : Option Str :=
  match nameOf number ALIASES with
  | some _ => none
  | none => match nameOf number REGISTERS with
    | some _ => none
    | none => some (py "Invalid register number " ++ pyStr number ++ py "!")

/-- registers.py 71-77 -/
def registerNumberText (name : Str) : Option Str :=
  match dget REGISTERS name with
  | some _ => none
  | none => match dget ALIASES name with
    | some _ => none
    | none => some (py "Invalid register name " ++ name ++ py "!")

namespace Register

/-- registers.py 85, 105-106 -/
def valueText (width : Int) : Str := py "Invalid value for " ++ pyStr width ++ py "-bit register!"

/-- registers.py 83-96. See `Register.init` for a negative width. The data checked always fit the field
they are assigned to. -/
def initText (data : Int) (name : Option Str) (width : Int) : Option Str :=
  if width < 0 then some (valueText width)
  else if data < 0 ∨ data > 2 ^ width.toNat - 1 then some (valueText width)
  else if name.getD [] ≠ [] ∧ name.getD [] ∉ REGISTER_NAMES then
    some (py "Invalid register name " ++ name.getD [] ++ py "!")
  else if width ≠ 16 ∧ width ≠ 24 then
    some (py "Invalid register width " ++ pyStr width ++ py ", must be 16 or 24!")
  else none

/-- registers.py 102-107: the `value` setter. -/
def setValueText (r : Register) (v : Int) : Option Str :=
  if v < 0 ∨ v > 2 ^ r.width - 1 then some (valueText r.width)
  else r.data.setitemText (.slice (some 1) (some r.width)) v

end Register

/-- registers.py 142-148: `RegisterGroup(width)`, where the registers are made one after the other; the
text is the one of the first that is refused. -/
def RegisterGroup.initText (width : Int) : Option Str :=
  REGISTERS.findSome? fun (name, _) => Register.initText 0 (some name) width

/-- registers.py 203-208: `Registers(width)`: eight groups. -/
def Registers.initText (width : Int) : Option Str :=
  (List.range Registers.NUM_GROUPS).findSome? fun _ => RegisterGroup.initText width

/-- registers.py 156, 168, 216, 226 -/
def SLICE_TEXT : Str := py "Slices not supported!"

/-- registers.py 154-164: `group[key]`. -/
def RegisterGroup.getitemText : GKey → Option Str
  | .slice => some SLICE_TEXT
  | .name s =>
    match dget REGISTERS s with
    | none => some (py "Invalid register name " ++ s ++ py "!")
    | some _ => none
  | .num n =>
    if n < 0 ∨ n ≥ REGISTERS.length then
      some (py "Invalid register number " ++ pyStr n ++ py "!")
    else none

/-- registers.py 166-172: `group[key] = value`. -/
def RegisterGroup.setitemText : GKey → Option Str
  | .slice => some SLICE_TEXT
  | _ => none

/-- registers.py 218-221, 228 -/
def groupText (key : Str) : Str := py "Invalid register group number " ++ key ++ py "!"

/-- registers.py 214-222: `registers[key]`; `shown` is `str(key)` of a key that is not an int. -/
def Registers.getitemText (shown : Str) : FKey → Option Str
  | .slice => some SLICE_TEXT
  | .other => some (groupText shown)
  | .num k => if k < 0 ∨ k ≥ NUM_GROUPS then some (groupText (pyStr k)) else none

/-- registers.py 224-230: `registers[key] = group`. -/
def Registers.setitemText (shown : Str) : FKey → Option Str
  | .slice => some SLICE_TEXT
  | .other => some (groupText shown)
  | .num _ => none

end H800
