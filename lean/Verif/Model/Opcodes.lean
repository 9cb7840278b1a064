import Verif.Model.Instruction

/-!
Model of the tables, helpers and wrapper classes of `h800/instructions.py`.
-/

namespace H800

/-- instructions.py 134-339: `OPCODES` (octal constants in decimal). -/
def OPCODES : Dict Str Opcode :=
  [(py "BA", ⟨py "BA", py "BinaryAdd", some 2, some 1, 9, py "maskable"⟩),
   (py "DA", ⟨py "DA", py "DecimalAdd", some 2, some 1, 1, py "maskable"⟩),
   (py "WA", ⟨py "WA", py "WordAdd", some 2, some 1, 13, py "maskable"⟩),
   (py "BS", ⟨py "BS", py "BinarySubtract", some 2, some 1, 25, py "maskable"⟩),
   (py "DS", ⟨py "DS", py "DecimalSubtract", some 2, some 1, 17, py "maskable"⟩),
   (py "WD", ⟨py "WD", py "WordDifference", some 2, some 1, 29, py "maskable"⟩),
   (py "NA", ⟨py "NA", py "NotEqualAlphabetic", some 2, some 1, 12, py "maskable"⟩),
   (py "NN", ⟨py "NN", py "NotEqualNumeric", some 2, some 1, 8, py "maskable"⟩),
   (py "LA", ⟨py "LA", py "LessThanOrEqualAlphabetic", some 2, some 1, 28, py "maskable"⟩),
   (py "LN", ⟨py "LN", py "LessThanOrEqualNumeric", some 2, some 1, 24, py "maskable"⟩),
   (py "TX", ⟨py "TX", py "Transfer", some 2, some 1, 16, py "maskable"⟩),
   (py "TS", ⟨py "TS", py "TransferAndChangeSequence", some 2, some 1, 4, py "maskable"⟩),
   (py "HA", ⟨py "HA", py "HalfAdd", some 2, some 1, 21, py "maskable"⟩),
   (py "SM", ⟨py "SM", py "Superimpose", some 2, some 1, 5, py "maskable"⟩),
   (py "CP", ⟨py "CP", py "CheckParity", some 2, some 1, 20, py "maskable"⟩),
   (py "BM", ⟨py "BM", py "BinaryMultiply", some 0, some 0, 11, py "unmasked"⟩),
   (py "DM", ⟨py "DM", py "DecimalMultiply", some 0, some 0, 3, py "unmasked"⟩),
   (py "BT", ⟨py "BT", py "BinaryAccumulate", some 2, some 0, 11, py "unmasked"⟩),
   (py "DT", ⟨py "DT", py "DecimalAccumulate", some 2, some 0, 3, py "unmasked"⟩),
   (py "MT", ⟨py "MT", py "MultipleTransfer", some 0, some 0, 16, py "unmasked"⟩),
   (py "TN", ⟨py "TN", py "TransferNWords", some 1, some 0, 16, py "unmasked"⟩),
   (py "CC", ⟨py "CC", py "ComputeOrthocount", some 1, some 0, 8, py "unmasked"⟩),
   (py "IT", ⟨py "IT", py "ItemTransfer", some 1, some 0, 24, py "unmasked"⟩),
   (py "EBA", ⟨py "EBA", py "ExtendedBinaryAdd", some 3, some 0, 11, py "unmasked"⟩),
   (py "EBS", ⟨py "EBS", py "ExtendedBinarySubtract", some 3, some 0, 27, py "unmasked"⟩),
   (py "RT", ⟨py "RT", py "RecordTransfer", some 3, some 0, 24, py "unmasked"⟩),
   (py "MPC", ⟨py "MPC", py "ControlProgram", some 2, some 0, 0, py "unmasked"⟩),
   (py "PR", ⟨py "PR", py "Proceed", some 0, some 0, 0, py "unmasked"⟩),
   (py "SWS", ⟨py "SWS", py "ShiftWordAndSubstitute", some 2, some 0, 6, py "unmasked"⟩),
   (py "SPS", ⟨py "SPS", py "ShiftPreservingSignAndSubstitute", some 2, some 0, 2, py "unmasked"⟩),
   (py "SWE", ⟨py "SWE", py "ShiftWordAndExtract", some 2, some 0, 14, py "unmasked"⟩),
   (py "SPE", ⟨py "SPE", py "ShiftPreservingSignAndExtract", some 2, some 0, 10, py "unmasked"⟩),
   (py "SSL", ⟨py "SSL", py "ShiftAndSelect", some 2, some 0, 22, py "unmasked"⟩),
   (py "SS", ⟨py "SS", py "Substitute", some 0, some 0, 6, py "unmasked"⟩),
   (py "EX", ⟨py "EX", py "Extract", some 0, some 0, 14, py "unmasked"⟩),
   (py "RF", ⟨py "RF", py "ReadForward", none, some 1, 26, py "peripheral"⟩),
   (py "RB", ⟨py "RB", py "ReadBackward", none, some 1, 10, py "peripheral"⟩),
   (py "WF", ⟨py "WF", py "WriteForward", none, some 1, 14, py "peripheral"⟩),
   (py "RW", ⟨py "RW", py "Rewind", none, some 1, 2, py "peripheral"⟩),
   (py "PRA", ⟨py "PRA", py "PrintAlphabetic", none, some 1, 6, py "print"⟩),
   (py "PRD", ⟨py "PRD", py "PrintDecimal", none, some 1, 6, py "print"⟩),
   (py "PRO", ⟨py "PRO", py "PrintOctal", none, some 1, 6, py "print"⟩),
   (py "S", ⟨py "S", py "Simulator", none, none, 7, py "simulator"⟩),
   (py "FBA", ⟨py "FBA", py "FloatingBinaryAdd", some 1, some 0, 1, py "unmasked"⟩),
   (py "FDA", ⟨py "FDA", py "FloatingDecimalAdd", some 1, some 0, 17, py "unmasked"⟩),
   (py "FBS", ⟨py "FBS", py "FloatingBinarySubtract", some 1, some 0, 9, py "unmasked"⟩),
   (py "FDS", ⟨py "FDS", py "FloatingDecimalSubtract", some 1, some 0, 25, py "unmasked"⟩),
   (py "FBD", ⟨py "FBD", py "FloatingBinaryDivide", some 1, some 0, 5, py "unmasked"⟩),
   (py "FDD", ⟨py "FDD", py "FloatingDecimalDivide", some 1, some 0, 21, py "unmasked"⟩),
   (py "FBAU", ⟨py "FBAU", py "FloatingBinaryAddUnnormalized", some 3, some 0, 1, py "unmasked"⟩),
   (py "FDAU", ⟨py "FDAU", py "FloatingDecimalAddUnnormalized", some 3, some 0, 17, py "unmasked"⟩),
   (py "FBSU", ⟨py "FBSU", py "FloatingBinarySubtractUnnormalized", some 3, some 0, 9, py "unmasked"⟩),
   (py "FDSU", ⟨py "FDSU", py "FloatingDecimalSubtractUnnormalized", some 3, some 0, 25, py "unmasked"⟩),
   (py "FBM", ⟨py "FBM", py "FloatingBinaryMultiply", some 3, some 0, 5, py "unmasked"⟩),
   (py "FDM", ⟨py "FDM", py "FloatingDecimalMultiply", some 3, some 0, 21, py "unmasked"⟩),
   (py "ULD", ⟨py "ULD", py "MultipleUnload", some 3, some 0, 13, py "unmasked"⟩),
   (py "FBAE", ⟨py "FBAE", py "FloatingBinaryAddExtendedPrecision", some 0, some 0, 1, py "unmasked"⟩),
   (py "FBSE", ⟨py "FBSE", py "FloatingBinarySubtractExtendedPrecision", some 0, some 0, 9, py "unmasked"⟩),
   (py "BD", ⟨py "BD", py "FixedBinaryDivide", some 0, some 0, 5, py "unmasked"⟩),
   (py "DD", ⟨py "DD", py "FixedDecimalDivide", some 0, some 0, 21, py "unmasked"⟩),
   (py "FFN", ⟨py "FFN", py "FixedToFloatingNormalize", some 0, some 0, 13, py "unmasked"⟩),
   (py "FCON", ⟨py "FCON", py "Conversion", some 0, some 0, 29, py "unmasked"⟩),
   (py "FLN", ⟨py "FLN", py "FloatingLessThanNormalized", some 0, some 0, 24, py "unmasked"⟩),
   (py "FNN", ⟨py "FNN", py "FloatingNotEqualNormalized", some 2, some 0, 12, py "unmasked"⟩)]

/-- instructions.py 343-354: the keys of `CONTROL_INSTRUCTIONS` (all values are None). -/
def CONTROL_INSTRUCTIONS : List Str :=
  [py "ASSIGN", py "END", py "EQUALS", py "EVEN", py "MASKGRP", py "MODLOC", py "RESERVE",
   py "SETLOC", py "SIMULATE", py "TAS"]

/-- instructions.py 356-364: the keys of `DATA_CONSTANTS` (all values are None). -/
def DATA_CONSTANTS : List Str :=
  [py "ALF", py "DEC", py "EBC", py "FLBIN", py "FLDEC", py "FXBIN", py "OCT"]

/-- instructions.py 366-376: the keys of `CONTROL_CONSTANTS` (all values are None). -/
def CONTROL_CONSTANTS : List Str :=
  [py "SPEC", py "CAC", py "MASKBASE", py "CONTROL", py "M", py "TAC", py "LINK",
   py "SEGNAME", py "SUBCALL"]

/-- instructions.py 378-385: the keys of `EXTENDED_INSTRUCTIONS` (all values are None). -/
def EXTENDED_INSTRUCTIONS : List Str :=
  [py "CSCON", py "DOFF", py "DON", py "SCON", py "SPCR", py "STOP"]

/-- instructions.py 387-390: the keys of `MISC_INSTRUCTIONS` (all values are None). -/
def MISC_INSTRUCTIONS : List Str :=
  [py "COREDUMP", py "DUMP"]

/-- instructions.py 393-406: the keys of `ARGUS_INSTRUCTIONS` (all values are None). -/
def ARGUS_INSTRUCTIONS : List Str :=
  [py "ARGUS", py "U", py "MACRODEF", py "FINIS", py "ELIMSEG", py "SEGMENT", py "PROGRAM",
   py "TESTDATA", py "ELIMDATA", py "ELIMDERL", py "DELETE", py "ENDARGUS"]

/-- instructions.py 408-414: `INSTRUCTIONS`. -/
def INSTRUCTIONS : List Str :=
  OPCODES.map (·.1) ++ CONTROL_INSTRUCTIONS ++ DATA_CONSTANTS ++ CONTROL_CONSTANTS ++
    EXTENDED_INSTRUCTIONS ++ MISC_INSTRUCTIONS ++ ARGUS_INSTRUCTIONS

/-- instructions.py 417-419: `OPCODES[m]` raises KeyError, `0o40 * None` TypeError. -/
def makeMasked (m : Str) (sequence mask : Int) : Py Int := do
  let o ← dgetE OPCODES m
  let b7 ← BitField.needInt o.b7
  return 2048 * sequence + 64 * mask + 32 * b7 + o.op

/-- instructions.py 422-425 -/
def makeUnmasked (m : Str) (sequence a b c : Int) : Py Int := do
  let o ← dgetE OPCODES m
  let b23 ← BitField.needInt o.b23
  return 2048 * sequence + 512 * b23 + 256 * a + 128 * b + 64 * c + o.op

/-- instructions.py 428-430 -/
def makePeripheral (m : Str) (paddr : Int) : Py Int := do
  let o ← dgetE OPCODES m
  let b7 ← BitField.needInt o.b7
  return 64 * paddr + 32 * b7 + o.op

/-- instructions.py 433-436 -/
def makePrint (m : Str) (sequence a b c : Int) : Py Int := do
  let o ← dgetE OPCODES m
  let b7 ← BitField.needInt o.b7
  return 2048 * sequence + 256 * a + 128 * b + 64 * c + 32 * b7 + o.op

/-- The constructor signatures of the classes in instructions.py 447-896, by base class.
`maskable`: `(sequence, mask=None, a=None, b=None, c=None)` on `Instruction`;
`unmasked`, `scientific`: `(sequence, a, b, c)` on `GeneralUnmasked`, `Scientific`;
`proceed`: `()` on `GeneralUnmasked` with zeros; `peripheral`: `(paddr)`; `simulator`: `(sequence)`. -/
inductive Sig where
  | maskable | unmasked | scientific | proceed | peripheral | simulator
  deriving DecidableEq, Repr

/-- instructions.py 447-896: the machine-instruction classes: name, the key in `OPCODES[...]` of the
constructor, signature. -/
def CLASSES : List (Str × Str × Sig) :=
  [(py "BinaryAdd", py "BA", .maskable),
   (py "DecimalAdd", py "DA", .maskable),
   (py "WordAdd", py "WA", .maskable),
   (py "BinarySubtract", py "BS", .maskable),
   (py "DecimalSubtract", py "DS", .maskable),
   (py "WordDifference", py "WD", .maskable),
   (py "NotEqualAlphabetic", py "NA", .maskable),
   (py "NotEqualNumeric", py "NN", .maskable),
   (py "LessThanOrEqualAlphabetic", py "LA", .maskable),
   (py "LessThanOrEqualNumeric", py "LN", .maskable),
   (py "Transfer", py "TX", .maskable),
   (py "TransferChangeSequence", py "TS", .maskable),
   (py "HalfAdd", py "HA", .maskable),
   (py "Superimpose", py "SM", .maskable),
   (py "CheckParity", py "CP", .maskable),
   (py "BinaryMultiply", py "BM", .unmasked),
   (py "DecimalMultiply", py "DM", .unmasked),
   (py "BinaryAccumulate", py "BT", .unmasked),
   (py "DecimalAccumulate", py "DT", .unmasked),
   (py "MultipleTransfer", py "MT", .unmasked),
   (py "TransferNWords", py "TN", .unmasked),
   (py "ComputeOrthocount", py "CC", .unmasked),
   (py "ItemTransfer", py "IT", .unmasked),
   (py "ExtendedBinaryAdd", py "EBA", .unmasked),
   (py "ExtendedBinarySubtract", py "EBS", .unmasked),
   (py "RecordTransfer", py "RT", .unmasked),
   (py "ControlProgram", py "MPC", .unmasked),
   (py "Proceed", py "PR", .proceed),
   (py "ShiftWordAndSubstitute", py "SWS", .unmasked),
   (py "ShiftPreservingSignAndSubstitute", py "SPS", .unmasked),
   (py "ShiftWordAndExtract", py "SWE", .unmasked),
   (py "ShiftPreservingSignAndExtract", py "SPE", .unmasked),
   (py "ShiftAndSelect", py "SSL", .unmasked),
   (py "Substitute", py "SS", .unmasked),
   (py "Extract", py "EX", .unmasked),
   (py "ReadForward", py "RF", .peripheral),
   (py "ReadBackward", py "RB", .peripheral),
   (py "WriteForward", py "WF", .peripheral),
   (py "Rewind", py "RW", .peripheral),
   (py "PrintAlphabetic", py "PRA", .unmasked),
   (py "PrintDecimal", py "PRD", .unmasked),
   (py "PrintOctal", py "PRO", .unmasked),
   (py "Simulator", py "S", .simulator),
   (py "FloatingBinaryAdd", py "FBA", .scientific),
   (py "FloatingDecimalAdd", py "FDA", .scientific),
   (py "FloatingBinarySubtract", py "FBS", .scientific),
   (py "FloatingDecimalSubtract", py "FDS", .scientific),
   (py "FloatingBinaryDivide", py "FBD", .scientific),
   (py "FloatingDecimalDivide", py "FDD", .scientific),
   (py "FloatingBinaryAddUnnormalized", py "FBAU", .scientific),
   (py "FloatingDecimalAddUnnormalized", py "FDAU", .scientific),
   (py "FloatingBinarySubtractUnnormalized", py "FBSU", .scientific),
   (py "FloatingDecimalSubtractUnnormalized", py "FDSU", .scientific),
   (py "FloatingBinaryMultiply", py "FBM", .scientific),
   (py "FloatingDecimalMultiply", py "FDM", .scientific),
   (py "MultipleUnload", py "ULD", .scientific),
   (py "FloatingBinaryAddExtendedPrecision", py "FBAE", .scientific),
   (py "FloatingBinarySubtractExtendedPrecision", py "FBSE", .scientific),
   (py "FixedBinaryDivide", py "BD", .scientific),
   (py "FixedDecimalDivide", py "DD", .scientific),
   (py "FixedToFloatingNormalize", py "FFN", .scientific),
   (py "Conversion", py "FCON", .scientific),
   (py "FloatingLessThanNormalized", py "FLN", .scientific),
   (py "FloatingNotEqualNormalized", py "FNN", .scientific)]

/-- The arguments of a machine-instruction class. Arguments the signature does not have raise
TypeError in Python; a caller passing `None` for a required argument is `none`. -/
structure Args where
  sequence : Option Int := none
  mask : Option Int := none
  a : Option Int := none
  b : Option Int := none
  c : Option Int := none
  paddr : Option Int := none
  deriving DecidableEq, Repr

/-- The keyword arguments each signature accepts. -/
def Sig.accepts (s : Sig) (x : Args) : Bool :=
  match s with
  | .maskable => x.paddr.isNone
  | .unmasked | .scientific => x.mask.isNone && x.paddr.isNone
  | .proceed => x = {}
  | .peripheral => x = { paddr := x.paddr }
  | .simulator => x = { sequence := x.sequence }

/-- instructions.py 447-896 with instruction.py 180-207: `Cls(...)` for a class of `CLASSES`; a
NameError stands for a name the module does not define (an AttributeError of the module). -/
def construct (cls : Str) (x : Args) : Py Instruction :=
  match dget CLASSES cls with
  | none => .error .nameError
  | some (m, sig) =>
    if ¬ sig.accepts x then .error .typeError
    else do
      let o ← dgetE OPCODES m
      match sig with
      | .maskable => Instruction.init o x.sequence x.mask x.a x.b x.c none
      | .unmasked | .scientific => Instruction.init o x.sequence none x.a x.b x.c none
      | .proceed => Instruction.init o (some 0) none (some 0) (some 0) (some 0) none
      | .peripheral => Instruction.init o none none none none none x.paddr
      | .simulator => Instruction.init o x.sequence none none none none none

/-- instructions.py 954-1064: the constant classes and their mnemonics. -/
def CONSTANT_CLASSES : List (Str × Str) :=
  [(py "AlphanumericConstant", py "ALF"),
   (py "DecimalConstant", py "DEC"),
   (py "ExtendedBinaryConstant", py "EBC"),
   (py "FloatingBinaryConstant", py "FLBIN"),
   (py "FloatingDecimalConstant", py "FLDEC"),
   (py "FixedBinaryConstant", py "FXBIN"),
   (py "OctalConstant", py "OCT"),
   (py "SpecialAddressConstant", py "SPEC"),
   (py "CompleteAddressConstant", py "CAC"),
   (py "MaskBaseAddressConstant", py "MASKBASE"),
   (py "ProgramControlConstant", py "CONTROL"),
   (py "MixedConstant", py "M"),
   (py "TapeAddressConstant", py "TAC"),
   (py "LinkageConstant", py "LINK"),
   (py "SegmentNameConstant", py "SEGNAME"),
   (py "SubroutineCallConstant", py "SUBCALL")]

/-- instructions.py 954-1064: `Cls(data)` for a constant class. -/
def constructConstant (cls : Str) (data : Int) : Py Word :=
  match dget CONSTANT_CLASSES cls with
  | none => .error .nameError
  | some m => Constant.init m data

/-- instructions.py 902-948: the assembly-control classes, which add nothing to their base. -/
def CONTROL_CLASSES : List Str :=
  [py "AssignTag",
   py "End",
   py "Equals",
   py "Even",
   py "MaskGroup",
   py "SetLocationCounterModuloN",
   py "Reserve",
   py "SetLocationCounter",
   py "Simulate",
   py "TemporarilyAssignTag"]

/-- instructions.py 902-948: `Cls(mnemonic, a, b, c)` for an assembly-control class. -/
def constructControl (cls : Str) (mnemonic : Str) (a b c : Option Int) : Py Instruction :=
  if cls ∈ CONTROL_CLASSES then AssemblyControl.init mnemonic a b c else .error .nameError

/-- instructions.py 1087-1119: the codes appended for one mnemonic. -/
def listingCodes (m : Str) (o : Opcode) : Py (List Int) :=
  let bits := pyRange 0 2
  if o.type = py "maskable" then
    (bits.flatMap fun i => (pyRange 0 32).map fun j => (i, j)).mapM fun p => makeMasked m p.1 p.2
  else if o.type = py "unmasked" then
    (bits.flatMap fun i => bits.flatMap fun j => bits.flatMap fun k => bits.map fun l =>
      (i, j, k, l)).mapM fun p => makeUnmasked m p.1 p.2.1 p.2.2.1 p.2.2.2
  else if o.type = py "peripheral" then
    (pyRange 0 64).mapM fun i => makePeripheral m i
  else if o.type = py "print" then
    if m = py "PRD" then
      (bits.flatMap fun i => bits.flatMap fun j => bits.flatMap fun k => bits.map fun l =>
        (i, j, k, l)).mapM fun p => makePrint m p.1 p.2.1 p.2.2.1 p.2.2.2
    else .ok []
  else if o.type = py "simulator" then .ok [7, 2055]
  else .error .valueError

/-- instructions.py 1084-1119: the dictionary `opcodes`; an AssertionError is not distinguished. -/
def listingTable : Py (List (Str × List Int)) :=
  OPCODES.mapM fun p => do
    let cs ← listingCodes p.1 p.2
    return (p.1, cs)

/-- instructions.py 1120-1124: the dictionary `opmap`. -/
def listingMap (t : List (Str × List Int)) : Dict Int Str :=
  t.foldl (fun d p => (pySortedInt p.2).foldl (fun d v => dset d v p.1) d) []

/-- instructions.py 1084-1126: the lines of `print_instructions()`, as (code, mnemonic) pairs in
order. -/
def listing : Py (List (Int × Str)) := do
  let t ← listingTable
  let m := listingMap t
  (pySortedInt (m.map (·.1))).mapM fun v => do
    let s ← dgetE m v
    return (v, s)

/-- instructions.py 1126: `"0o%04o %s" % (opval, mnemonic)`, for non-negative codes. -/
def listingLine (p : Int × Str) : Str :=
  py "0o" ++ padLeft '0' 4 (numeral 8 p.1.natAbs) ++ py " " ++ p.2

/-- charset.py 8-73: `CHARSET`; `none` is the value None of code 44. -/
def CHARSET : Dict Int (Option Char) :=
  [(0, some '0'), (1, some '1'), (2, some '2'), (3, some '3'), (4, some '4'), (5, some '5'),
   (6, some '6'), (7, some '7'), (8, some '8'), (9, some '9'), (10, some '\''), (11, some '='),
   (12, some ':'), (13, some ' '), (14, some ' '), (15, some '&'), (16, some '+'), (17, some 'A'),
   (18, some 'B'), (19, some 'C'), (20, some 'D'), (21, some 'E'), (22, some 'F'), (23, some 'G'),
   (24, some 'H'), (25, some 'I'), (26, some ';'), (27, some '.'), (28, some ')'), (29, some '%'),
   (30, some '█'), (31, some ' '), (32, some '-'), (33, some 'J'), (34, some 'K'), (35, some 'L'),
   (36, some 'M'), (37, some 'N'), (38, some 'O'), (39, some 'P'), (40, some 'Q'), (41, some 'R'),
   (42, some '#'), (43, some '$'), (44, none), (45, some '"'), (46, some ' '), (47, some ' '),
   (48, some ' '), (49, some '/'), (50, some 'S'), (51, some 'T'), (52, some 'U'), (53, some 'V'),
   (54, some 'W'), (55, some 'X'), (56, some 'Y'), (57, some 'Z'), (58, some '@'), (59, some ','),
   (60, some '('), (61, some '\n'), (62, some ' '), (63, some ' ')]

end H800
