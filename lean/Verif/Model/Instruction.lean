import Verif.Model.Word

/-!
Model of `h800/instruction.py`.

Simplifications: the operands are ints or None (a bool is its int; `x in (0, 1, True, False)` is
`x = 0 or x = 1`); the attributes nothing reads back (`_sequence`, `_mask`, ...) are dropped; the
`print` at lines 73-74 is in `Verif/Model/Calls.lean`; `Opcode.op` is an int (the namedtuple default
None is never used in the table).
-/

namespace H800

/-- instructions.py 130-132: the named tuple `Opcode(m, c, b23, b7, op, type)`. -/
structure Opcode where
  m : Str
  c : Str
  b23 : Option Int
  b7 : Option Int
  op : Int
  type : Str
  deriving DecidableEq, Repr

/-- instruction.py 69-92: an instruction object: its opcode record and its 12-bit field. -/
structure Instruction where
  opcode : Opcode
  data : BitField
  deriving DecidableEq, Repr

namespace Instruction

/-- `x not in (0, 1, True, False)` for an int. -/
def notBool (x : Int) : Prop := ¬ (x = 0 ∨ x = 1)

instance (x : Int) : Decidable (notBool x) := inferInstanceAs (Decidable (¬ _))

/-- Truth value of an optional int: false for None and 0. -/
def truthy : Option Int → Bool
  | none => false
  | some x => x ≠ 0

/-- instruction.py 131-136 -/
def checkSequence (sequence paddr : Option Int) : Py Unit :=
  match sequence with
  | none => .ok ()
  | some s =>
    if truthy paddr then .error .valueError
    else if notBool s then .error .valueError
    else .ok ()

/-- instruction.py 137-146 -/
def checkMask (type : Str) (mask a b c paddr : Option Int) : Py Unit :=
  match mask with
  | none => .ok ()
  | some m =>
    if type ≠ py "maskable" then .error .valueError
    else if a.isSome ∨ b.isSome ∨ c.isSome ∨ paddr.isSome then .error .valueError
    else if m < 0 ∨ m > 31 then .error .valueError
    else .ok ()

/-- instruction.py 147-149, 150-152, 153-155: `a`, `b`, `c`. -/
def checkBit (x : Option Int) : Py Unit :=
  match x with
  | none => .ok ()
  | some v => if notBool v then .error .valueError else .ok ()

/-- instruction.py 156-164 -/
def checkPaddr (sequence mask a b c paddr : Option Int) : Py Unit :=
  match paddr with
  | none => .ok ()
  | some p =>
    if sequence.isSome ∨ mask.isSome ∨ a.isSome ∨ b.isSome ∨ c.isSome then .error .valueError
    else if p < 0 ∨ p > 63 then .error .valueError
    else .ok ()

/-- instruction.py 165-167 (limit 1) and 168-170 (limit 3): bit 7 and bits 2-3 of the opcode. -/
def checkOpt (x : Option Int) (limit : Int) : Py Unit :=
  match x with
  | none => .ok ()
  | some v => if v < 0 ∨ v > limit then .error .valueError else .ok ()

/-- instruction.py 171-172 -/
def checkOp (op : Int) : Py Unit := if op < 0 ∨ op > 31 then .error .valueError else .ok ()

/-- instruction.py 129-172 -/
def check (o : Opcode) (sequence mask a b c paddr : Option Int) : Py Unit := do
  checkSequence sequence paddr
  checkMask o.type mask a b c paddr
  checkBit a
  checkBit b
  checkBit c
  checkPaddr sequence mask a b c paddr
  checkOpt o.b7 1
  checkOpt o.b23 3
  checkOp o.op

/-- `if x is not None: data[k] = x`. -/
def assignOpt (d : BitField) (k : Key) (x : Option Int) : Py BitField :=
  match x with
  | none => .ok d
  | some v => d.assign k v

/-- instruction.py 95-98: whether bit 7 is written. -/
def usesBit7 (type : Str) (mask : Option Int) : Bool :=
  (type = py "maskable" ∨ type = py "peripheral" ∨ type = py "print") ∧
    ((type = py "maskable" ∧ mask.isSome) ∨ type ≠ py "maskable")

/-- instruction.py 95-100 -/
def writeBit7 (d : BitField) (o : Opcode) (mask : Option Int) : Py BitField :=
  if usesBit7 o.type mask then assignOpt d (.idx 7) o.b7 else .ok d

/-- instruction.py 102-108 -/
def writeMask (d : BitField) (o : Opcode) (mask : Option Int) : Py BitField :=
  match mask with
  | some m => d.assign (.slice (some 2) (some 6)) m
  | none => assignOpt d (.slice (some 2) (some 3)) o.b23

/-- `1 if x else 0` for an int. -/
def oneIf (x : Int) : Int := if x ≠ 0 then 1 else 0

/-- instruction.py 69-127 -/
def init (o : Opcode) (sequence mask a b c paddr : Option Int) : Py Instruction := do
  let d ← BitField.init 0 12 3 0
  check o sequence mask a b c paddr
  let d ← assignOpt d (.idx 1) sequence
  let d ← writeBit7 d o mask
  let d ← writeMask d o mask
  let d ← assignOpt d (.idx 4) (a.map oneIf)
  let d ← assignOpt d (.idx 5) (b.map oneIf)
  let d ← assignOpt d (.idx 6) (c.map oneIf)
  let d ← assignOpt d (.slice (some 1) (some 6)) paddr
  let d ← d.assign (.slice (some 8) (some 12)) o.op
  return ⟨o, d⟩

/-- instruction.py 174-177 -/
def value (i : Instruction) : Int := i.data.value

end Instruction

/-- instruction.py 210-216: `Constant(mnemonic, data)`. -/
def Constant.init (_mnemonic : Str) (data : Int) : Py Word :=
  if data < 0 ∨ data > 2 ^ 48 - 1 then .error .valueError else Word.init data

/-- instruction.py 71-72: the parameters of `Instruction.__init__` after `self`. -/
def Instruction.params : List (Str × Bool) :=
  [(py "opcode", false), (py "sequence", true), (py "mask", true), (py "a", true), (py "b", true),
   (py "c", true), (py "paddr", true), (py "pseudo", true)]

/-- instruction.py 219-222: the base constructor is called with keywords `mnemonic`, `a`, `b`, `c`,
`pseudo`, which is checked before its body runs. Were the call to bind, the opcode would be the one
named; no such lookup exists in the code, so that branch is left an AttributeError. -/
def PseudoInstruction.init (_mnemonic : Str) (_a _b _c : Option Int) : Py Instruction :=
  match bindCall Instruction.params 0 [py "mnemonic", py "a", py "b", py "c", py "pseudo"] with
  | .error e => .error e
  | .ok _ => .error .attributeError

/-- instruction.py 225-228 -/
def AssemblyControl.init (mnemonic : Str) (a b c : Option Int) : Py Instruction :=
  PseudoInstruction.init mnemonic a b c

end H800
