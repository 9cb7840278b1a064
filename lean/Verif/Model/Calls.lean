import Verif.Model.Opcodes
import Verif.Model.Repr

/-!
Calls of the machine-instruction classes of `h800/instructions.py` as they are written, with arguments
by position and by keyword, and the line that the constructor of `h800/instruction.py` prints.

Simplifications: the arguments are ints or None (True and False would be printed by name); the keywords
of a call are distinct, as Python demands of every call.
-/

namespace H800

/-- The arguments of a call: those given by position, and those given by keyword. -/
structure CallArgs where
  pos : List (Option Int) := []
  kws : Dict Str (Option Int) := []
  deriving DecidableEq, Repr

/-- The parameters of `__init__` after `self`, and whether they have a default (which is None).
instructions.py 447-451: `sequence` has one in the class `BinaryAdd` only; 454-549: the other maskable
classes; 554-692, 721-739 and 752-896: unmasked, print and scientific classes; 638-642: `Proceed`;
697-718: peripheral classes; 744-747: `Simulator`. -/
def classParams (cls : Str) : Sig → List (Str × Bool)
  | .maskable =>
    [(py "sequence", cls = py "BinaryAdd"), (py "mask", true), (py "a", true), (py "b", true),
     (py "c", true)]
  | .unmasked | .scientific => [(py "sequence", false), (py "a", false), (py "b", false), (py "c", false)]
  | .proceed => []
  | .peripheral => [(py "paddr", false)]
  | .simulator => [(py "sequence", false)]

/-- The value of a parameter in a call that has been accepted: the arguments by position first, then
those by keyword, then the default None. -/
def argValue (params : List (Str × Bool)) (call : CallArgs) (name : Str) : Option Int :=
  match dget ((params.map (·.1)).zip call.pos) name with
  | some v => v
  | none =>
    match dget call.kws name with
    | some v => v
    | none => none

/-- The parameters of a call by name, for those that the class has. -/
def callValues (params : List (Str × Bool)) (call : CallArgs) : Args :=
  { sequence := argValue params call (py "sequence"), mask := argValue params call (py "mask"),
    a := argValue params call (py "a"), b := argValue params call (py "b"),
    c := argValue params call (py "c"), paddr := argValue params call (py "paddr") }

/-- `%s` of an int or None. -/
def showOpt : Option Int → Str
  | none => py "None"
  | some n => pyStr n

/-- `%s` of an `Opcode`: named tuples are shown with the names of their fields. -/
def Opcode.text (printable : Char → Bool) (o : Opcode) : Str :=
  py "Opcode(m=" ++ reprStr printable o.m ++ py ", c=" ++ reprStr printable o.c ++ py ", b23=" ++
    showOpt o.b23 ++ py ", b7=" ++ showOpt o.b7 ++ py ", op=" ++ pyStr o.op ++ py ", type=" ++
    reprStr printable o.type ++ py ")"

/-- instruction.py 73-74: the line printed first by `Instruction.__init__`. -/
def Instruction.line (printable : Char → Bool) (o : Opcode) (sequence mask a b c paddr : Option Int) :
    Str :=
  py "opcode:" ++ o.text printable ++ py " sequence:" ++ showOpt sequence ++ py " mask:" ++
    showOpt mask ++ py " a=" ++ showOpt a ++ py " b=" ++ showOpt b ++ py " c=" ++ showOpt c ++
    py " paddr=" ++ showOpt paddr

/-- The operands that a class hands to `Instruction.__init__` (instructions.py 447-896 with
instruction.py 180-207). -/
def Sig.operands (x : Args) : Sig → Args
  | .maskable => { x with paddr := none }
  | .unmasked | .scientific => { sequence := x.sequence, a := x.a, b := x.b, c := x.c }
  | .proceed => { sequence := some 0, a := some 0, b := some 0, c := some 0 }
  | .peripheral => { paddr := x.paddr }
  | .simulator => { sequence := x.sequence }

/-- `Cls(...)` for a class of `CLASSES`: the lines printed, and the instruction. Python binds the
arguments (TypeError) before the body of `__init__` runs; the line is printed before the operands are
checked. -/
def callClass (printable : Char → Bool) (cls : Str) (call : CallArgs) : List Str × Py Instruction :=
  match dget CLASSES cls with
  | none => ([], .error .nameError)
  | some (m, sig) =>
    let params := classParams cls sig
    match bindCall params call.pos.length (call.kws.map (·.1)) with
    | .error e => ([], .error e)
    | .ok _ =>
      match dgetE OPCODES m with
      | .error e => ([], .error e)
      | .ok o =>
        let x := sig.operands (callValues params call)
        ([Instruction.line printable o x.sequence x.mask x.a x.b x.c x.paddr],
          Instruction.init o x.sequence x.mask x.a x.b x.c x.paddr)

end H800
