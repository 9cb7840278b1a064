import Verif.Model.Values
import Verif.Model.Opcodes

/-!
The constructors of `h800/instruction.py` and the classes of `h800/instructions.py` given operands that
are not ints. The rest of the model is for ints and None only; on them the functions of this file agree
with it (C220_agrees).

Simplification: the opcode is a row as in `OPCODES`, of ints.
-/

namespace H800

/-- The operands of an instruction: None, or any value. -/
structure ArgsV where
  sequence : Option PyVal := none
  mask : Option PyVal := none
  a : Option PyVal := none
  b : Option PyVal := none
  c : Option PyVal := none
  paddr : Option PyVal := none
  deriving DecidableEq, Repr

namespace Instruction

/-- `x not in (0, 1, True, False)` -/
def notBoolV (x : PyVal) : Bool := !(x.eqInt 0 || x.eqInt 1)

/-- The truth value of an operand. -/
def truthyV : Option PyVal → Bool
  | none => false
  | some x => x.truth

/-- `x < 0 or x > limit`, and the ValueError. -/
def checkLimitV (x : PyVal) (limit : Int) : Py Unit := do
  if ← x.lt (.int 0) then throw .valueError
  if ← (PyVal.int limit).lt x then throw .valueError

/-- instruction.py 131-136 -/
def checkSequenceV (sequence paddr : Option PyVal) : Py Unit :=
  match sequence with
  | none => .ok ()
  | some s =>
    if truthyV paddr then .error .valueError
    else if notBoolV s then .error .valueError
    else .ok ()

/-- instruction.py 137-146 -/
def checkMaskV (type : Str) (mask a b c paddr : Option PyVal) : Py Unit :=
  match mask with
  | none => .ok ()
  | some m =>
    if type ≠ py "maskable" then .error .valueError
    else if a.isSome ∨ b.isSome ∨ c.isSome ∨ paddr.isSome then .error .valueError
    else checkLimitV m 31

/-- instruction.py 147-149, 150-152, 153-155: `a`, `b`, `c`. -/
def checkBitV (x : Option PyVal) : Py Unit :=
  match x with
  | none => .ok ()
  | some v => if notBoolV v then .error .valueError else .ok ()

/-- instruction.py 156-164 -/
def checkPaddrV (sequence mask a b c paddr : Option PyVal) : Py Unit :=
  match paddr with
  | none => .ok ()
  | some p =>
    if sequence.isSome ∨ mask.isSome ∨ a.isSome ∨ b.isSome ∨ c.isSome then .error .valueError
    else checkLimitV p 63

/-- instruction.py 129-172 -/
def checkV (o : Opcode) (x : ArgsV) : Py Unit := do
  checkSequenceV x.sequence x.paddr
  checkMaskV o.type x.mask x.a x.b x.c x.paddr
  checkBitV x.a
  checkBitV x.b
  checkBitV x.c
  checkPaddrV x.sequence x.mask x.a x.b x.c x.paddr
  checkOpt o.b7 1
  checkOpt o.b23 3
  checkOp o.op

/-- `if x is not None: data[k] = x`. -/
def assignOptV (F : FloatOps) (d : BitField) (k : KeyV) (x : Option PyVal) : Py BitField :=
  match x with
  | none => .ok d
  | some v => d.assignV F k v

/-- instruction.py 95-100 -/
def writeBit7V (d : BitField) (o : Opcode) (mask : Option PyVal) : Py BitField :=
  if (o.type = py "maskable" ∨ o.type = py "peripheral" ∨ o.type = py "print") ∧
    ((o.type = py "maskable" ∧ mask.isSome) ∨ o.type ≠ py "maskable") then assignOpt d (.idx 7) o.b7
  else .ok d

/-- instruction.py 102-108 -/
def writeMaskV (F : FloatOps) (d : BitField) (o : Opcode) (mask : Option PyVal) : Py BitField :=
  match mask with
  | some m => d.assignV F (.slice (.int 2) (.int 6)) m
  | none => assignOpt d (.slice (some 2) (some 3)) o.b23

/-- `1 if x else 0` -/
def oneIfV (x : PyVal) : Int := if x.truth then 1 else 0

/-- instruction.py 69-127 -/
def initV (F : FloatOps) (o : Opcode) (x : ArgsV) : Py Instruction := do
  let d ← BitField.init 0 12 3 0
  checkV o x
  let d ← assignOptV F d (.idx (.int 1)) x.sequence
  let d ← writeBit7V d o x.mask
  let d ← writeMaskV F d o x.mask
  let d ← assignOpt d (.idx 4) (x.a.map oneIfV)
  let d ← assignOpt d (.idx 5) (x.b.map oneIfV)
  let d ← assignOpt d (.idx 6) (x.c.map oneIfV)
  let d ← assignOptV F d (.slice (.int 1) (.int 6)) x.paddr
  let d ← d.assign (.slice (some 8) (some 12)) o.op
  return ⟨o, d⟩

end Instruction

/-- The keyword arguments each signature accepts. -/
def Sig.acceptsV (s : Sig) (x : ArgsV) : Bool :=
  match s with
  | .maskable => x.paddr.isNone
  | .unmasked | .scientific => x.mask.isNone && x.paddr.isNone
  | .proceed => x = {}
  | .peripheral => x = { paddr := x.paddr }
  | .simulator => x = { sequence := x.sequence }

/-- instructions.py 447-896 with instruction.py 180-207: `Cls(...)` for a class of `CLASSES`. -/
def constructV (F : FloatOps) (cls : Str) (x : ArgsV) : Py Instruction :=
  match dget CLASSES cls with
  | none => .error .nameError
  | some (m, sig) =>
    if ¬ sig.acceptsV x then .error .typeError
    else do
      let o ← dgetE OPCODES m
      match sig with
      | .maskable => Instruction.initV F o { x with paddr := none }
      | .unmasked | .scientific => Instruction.initV F o { x with mask := none, paddr := none }
      | .proceed => Instruction.init o (some 0) none (some 0) (some 0) (some 0) none
      | .peripheral => Instruction.initV F o { paddr := x.paddr }
      | .simulator => Instruction.initV F o { sequence := x.sequence }

/-- instruction.py 210-216: `Constant(mnemonic, data)`. -/
def Constant.initV (F : FloatOps) (_mnemonic : Str) (data : PyVal) : Py Word := do
  if ← data.lt (.int 0) then throw .valueError
  if ← (PyVal.int (2 ^ 48 - 1)).lt data then throw .valueError
  Word.initV F data

/-- instructions.py 954-1064: `Cls(data)` for a constant class. -/
def constructConstantV (F : FloatOps) (cls : Str) (data : PyVal) : Py Word :=
  match dget CONSTANT_CLASSES cls with
  | none => .error .nameError
  | some m => Constant.initV F m data

end H800
