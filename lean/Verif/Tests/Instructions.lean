import Verif.Model.Opcodes

/-!
The literal cases of `h800/instructions_test.py`, as checks that the model agrees with what the
project's own tests expect of the code. These are tests, not proofs; no property rests on them. The
loops over argument ranges in that file are instances of C37-C39, its check for
duplicates of C46.
-/

namespace H800.Tests

/-- The value of an instruction, or the exception. -/
def value (cls : Str) (x : Args) : Py Int := do return (← construct cls x).value

/-- The value of a constant, or the exception. -/
def constant (cls : Str) (x : Int) : Py Int := do return (← constructConstant cls x).value

/-- `run_tests` rows: class, arguments, expected value. -/
def simple : List (Str × Args × Py Int) :=
  [(py "BinaryAdd", { sequence := some 0, mask := some 0 }, .ok 41),
   (py "BinaryAdd", { sequence := some 0, mask := some 1 }, .ok 105),
   (py "BinaryAdd", { sequence := some 0, a := some 0, b := some 0, c := some 0 }, makeUnmasked (py "BA") 0 0 0 0),
   (py "DecimalAdd", { sequence := some 0, mask := some 0 }, .ok 33),
   (py "DecimalAdd", { sequence := some 0, a := some 0, b := some 0, c := some 0 }, .ok 1025),
   (py "WordAdd", { sequence := some 0, mask := some 0 }, .ok 45),
   (py "WordAdd", { sequence := some 0, a := some 0, b := some 0, c := some 0 }, .ok 1037),
   (py "BinarySubtract", { sequence := some 0, mask := some 0 }, .ok 57),
   (py "BinarySubtract", { sequence := some 0, a := some 0, b := some 0, c := some 0 }, .ok 1049),
   (py "DecimalSubtract", { sequence := some 0, mask := some 0 }, .ok 49),
   (py "DecimalSubtract", { sequence := some 0, a := some 0, b := some 0, c := some 0 }, .ok 1041),
   (py "WordDifference", { sequence := some 0, mask := some 0 }, .ok 61),
   (py "WordDifference", { sequence := some 0, a := some 0, b := some 0, c := some 0 }, .ok 1053),
   (py "NotEqualAlphabetic", { sequence := some 0, mask := some 0 }, .ok 44),
   (py "NotEqualAlphabetic", { sequence := some 0, a := some 0, b := some 0, c := some 0 }, .ok 1036),
   (py "NotEqualNumeric", { sequence := some 0, mask := some 0 }, .ok 40),
   (py "NotEqualNumeric", { sequence := some 0, a := some 0, b := some 0, c := some 0 }, .ok 1032),
   (py "LessThanOrEqualAlphabetic", { sequence := some 0, mask := some 0 }, .ok 60),
   (py "LessThanOrEqualAlphabetic", { sequence := some 0, a := some 0, b := some 0, c := some 0 }, .ok 1052),
   (py "LessThanOrEqualNumeric", { sequence := some 0, mask := some 0 }, .ok 56),
   (py "LessThanOrEqualNumeric", { sequence := some 0, a := some 0, b := some 0, c := some 0 }, .ok 1048),
   (py "Transfer", { sequence := some 0, mask := some 0 }, .ok 48),
   (py "Transfer", { sequence := some 0, a := some 0, b := some 0, c := some 0 }, .ok 1040),
   (py "TransferChangeSequence", { sequence := some 0, mask := some 0 }, .ok 36),
   (py "TransferChangeSequence", { sequence := some 0, a := some 0, b := some 0, c := some 0 }, .ok 1028),
   (py "HalfAdd", { sequence := some 0, mask := some 0 }, .ok 53),
   (py "HalfAdd", { sequence := some 0, a := some 0, b := some 0, c := some 0 }, .ok 1045),
   (py "Superimpose", { sequence := some 0, mask := some 0 }, .ok 37),
   (py "Superimpose", { sequence := some 0, a := some 0, b := some 0, c := some 0 }, .ok 1029),
   (py "CheckParity", { sequence := some 0, mask := some 0 }, .ok 52),
   (py "CheckParity", { sequence := some 0, a := some 0, b := some 0, c := some 0 }, .ok 1044),
   (py "BinaryMultiply", { sequence := some 0, a := some 0, b := some 0, c := some 0 }, .ok 11),
   (py "DecimalMultiply", { sequence := some 0, a := some 0, b := some 0, c := some 0 }, .ok 3),
   (py "BinaryAccumulate", { sequence := some 0, a := some 0, b := some 0, c := some 0 }, .ok 1035),
   (py "DecimalAccumulate", { sequence := some 0, a := some 0, b := some 0, c := some 0 }, .ok 1027),
   (py "MultipleTransfer", { sequence := some 0, a := some 0, b := some 0, c := some 0 }, .ok 16),
   (py "TransferNWords", { sequence := some 0, a := some 0, b := some 0, c := some 0 }, .ok 528),
   (py "ComputeOrthocount", { sequence := some 0, a := some 0, b := some 0, c := some 0 }, .ok 520),
   (py "ItemTransfer", { sequence := some 0, a := some 0, b := some 0, c := some 0 }, .ok 536),
   (py "ExtendedBinaryAdd", { sequence := some 0, a := some 0, b := some 0, c := some 0 }, .ok 1547),
   (py "ExtendedBinarySubtract", { sequence := some 0, a := some 0, b := some 0, c := some 0 }, .ok 1563),
   (py "RecordTransfer", { sequence := some 0, a := some 0, b := some 0, c := some 0 }, .ok 1560),
   (py "ControlProgram", { sequence := some 0, a := some 0, b := some 0, c := some 0 }, .ok 1024),
   (py "Proceed", {}, .ok 0),
   (py "ShiftWordAndSubstitute", { sequence := some 0, a := some 0, b := some 0, c := some 0 }, .ok 1030),
   (py "ShiftPreservingSignAndSubstitute", { sequence := some 0, a := some 0, b := some 0, c := some 0 }, .ok 1026),
   (py "ShiftWordAndExtract", { sequence := some 0, a := some 0, b := some 0, c := some 0 }, .ok 1038),
   (py "ShiftPreservingSignAndExtract", { sequence := some 0, a := some 0, b := some 0, c := some 0 }, .ok 1034),
   (py "ShiftAndSelect", { sequence := some 0, a := some 0, b := some 0, c := some 0 }, .ok 1046),
   (py "Substitute", { sequence := some 0, a := some 0, b := some 0, c := some 0 }, .ok 6),
   (py "Extract", { sequence := some 0, a := some 0, b := some 0, c := some 0 }, .ok 14),
   (py "ReadForward", { paddr := some 0 }, .ok 58),
   (py "ReadBackward", { paddr := some 0 }, .ok 42),
   (py "WriteForward", { paddr := some 0 }, .ok 46),
   (py "Rewind", { paddr := some 0 }, .ok 34),
   (py "PrintAlphabetic", { sequence := some 0, a := some 0, b := some 0, c := some 0 }, .ok 38),
   (py "PrintDecimal", { sequence := some 0, a := some 0, b := some 0, c := some 0 }, .ok 38),
   (py "PrintOctal", { sequence := some 0, a := some 0, b := some 0, c := some 0 }, .ok 38),
   (py "Simulator", { sequence := some 0 }, .ok 7),
   (py "Simulator", { sequence := some 0 }, .ok 7),
   (py "Simulator", { sequence := some 1 }, .ok 2055),
   (py "FloatingBinaryAdd", { sequence := some 0, a := some 0, b := some 0, c := some 0 }, .ok 513),
   (py "FloatingDecimalAdd", { sequence := some 0, a := some 0, b := some 0, c := some 0 }, .ok 529),
   (py "FloatingBinarySubtract", { sequence := some 0, a := some 0, b := some 0, c := some 0 }, .ok 521),
   (py "FloatingDecimalSubtract", { sequence := some 0, a := some 0, b := some 0, c := some 0 }, .ok 537),
   (py "FloatingBinaryDivide", { sequence := some 0, a := some 0, b := some 0, c := some 0 }, .ok 517),
   (py "FloatingDecimalDivide", { sequence := some 0, a := some 0, b := some 0, c := some 0 }, .ok 533),
   (py "FloatingBinaryAddUnnormalized", { sequence := some 0, a := some 0, b := some 0, c := some 0 }, .ok 1537),
   (py "FloatingDecimalAddUnnormalized", { sequence := some 0, a := some 0, b := some 0, c := some 0 }, .ok 1553),
   (py "FloatingBinarySubtractUnnormalized", { sequence := some 0, a := some 0, b := some 0, c := some 0 }, .ok 1545),
   (py "FloatingDecimalSubtractUnnormalized", { sequence := some 0, a := some 0, b := some 0, c := some 0 }, .ok 1561),
   (py "FloatingBinaryMultiply", { sequence := some 0, a := some 0, b := some 0, c := some 0 }, .ok 1541),
   (py "FloatingDecimalMultiply", { sequence := some 0, a := some 0, b := some 0, c := some 0 }, .ok 1557),
   (py "MultipleUnload", { sequence := some 0, a := some 0, b := some 0, c := some 0 }, .ok 1549),
   (py "FloatingBinaryAddExtendedPrecision", { sequence := some 0, a := some 0, b := some 0, c := some 0 }, .ok 1),
   (py "FloatingBinarySubtractExtendedPrecision", { sequence := some 0, a := some 0, b := some 0, c := some 0 }, .ok 9),
   (py "FixedBinaryDivide", { sequence := some 0, a := some 0, b := some 0, c := some 0 }, .ok 5),
   (py "FixedDecimalDivide", { sequence := some 0, a := some 0, b := some 0, c := some 0 }, .ok 21),
   (py "FixedToFloatingNormalize", { sequence := some 0, a := some 0, b := some 0, c := some 0 }, .ok 13),
   (py "Conversion", { sequence := some 0, a := some 0, b := some 0, c := some 0 }, .ok 29),
   (py "FloatingLessThanNormalized", { sequence := some 0, a := some 0, b := some 0, c := some 0 }, .ok 24),
   (py "FloatingNotEqualNormalized", { sequence := some 0, a := some 0, b := some 0, c := some 0 }, .ok 1036)]

/-- `run_exception_tests` rows. -/
def invalid : List (Str × Args) :=
  [(py "BinaryAdd", { sequence := some 0, mask := some 32 }),
   (py "BinaryAdd", { sequence := some 2, mask := some 0 }),
   (py "BinaryAdd", { sequence := some 2, a := some 0, b := some 0, c := some 0 }),
   (py "BinaryAdd", { sequence := some 0, a := some 2, b := some 0, c := some 0 }),
   (py "BinaryAdd", { sequence := some 0, a := some 1, b := some 2, c := some 3 }),
   (py "DecimalAdd", { sequence := some 0, mask := some 32 }),
   (py "DecimalAdd", { sequence := some 2, mask := some 0 }),
   (py "DecimalAdd", { sequence := some 2, a := some 0, b := some 0, c := some 0 }),
   (py "DecimalAdd", { sequence := some 0, a := some 2, b := some 0, c := some 0 }),
   (py "DecimalAdd", { sequence := some 0, a := some 1, b := some 2, c := some 3 }),
   (py "WordAdd", { sequence := some 0, mask := some 32 }),
   (py "WordAdd", { sequence := some 2, mask := some 0 }),
   (py "WordAdd", { sequence := some 2, a := some 0, b := some 0, c := some 0 }),
   (py "WordAdd", { sequence := some 0, a := some 2, b := some 0, c := some 0 }),
   (py "WordAdd", { sequence := some 0, a := some 1, b := some 2, c := some 3 }),
   (py "BinarySubtract", { sequence := some 0, mask := some 32 }),
   (py "BinarySubtract", { sequence := some 2, mask := some 0 }),
   (py "BinarySubtract", { sequence := some 2, a := some 0, b := some 0, c := some 0 }),
   (py "BinarySubtract", { sequence := some 0, a := some 2, b := some 0, c := some 0 }),
   (py "BinarySubtract", { sequence := some 0, a := some 1, b := some 2, c := some 3 }),
   (py "DecimalSubtract", { sequence := some 0, mask := some 32 }),
   (py "DecimalSubtract", { sequence := some 2, mask := some 0 }),
   (py "DecimalSubtract", { sequence := some 2, a := some 0, b := some 0, c := some 0 }),
   (py "DecimalSubtract", { sequence := some 0, a := some 2, b := some 0, c := some 0 }),
   (py "DecimalSubtract", { sequence := some 0, a := some 1, b := some 2, c := some 3 }),
   (py "WordDifference", { sequence := some 0, mask := some 32 }),
   (py "WordDifference", { sequence := some 2, mask := some 0 }),
   (py "WordDifference", { sequence := some 2, a := some 0, b := some 0, c := some 0 }),
   (py "WordDifference", { sequence := some 0, a := some 2, b := some 0, c := some 0 }),
   (py "WordDifference", { sequence := some 0, a := some 1, b := some 2, c := some 3 }),
   (py "NotEqualAlphabetic", { sequence := some 0, mask := some 32 }),
   (py "NotEqualAlphabetic", { sequence := some 2, mask := some 0 }),
   (py "NotEqualAlphabetic", { sequence := some 2, a := some 0, b := some 0, c := some 0 }),
   (py "NotEqualAlphabetic", { sequence := some 0, a := some 2, b := some 0, c := some 0 }),
   (py "NotEqualAlphabetic", { sequence := some 0, a := some 1, b := some 2, c := some 3 }),
   (py "NotEqualNumeric", { sequence := some 0, mask := some 32 }),
   (py "NotEqualNumeric", { sequence := some 2, mask := some 0 }),
   (py "NotEqualNumeric", { sequence := some 2, a := some 0, b := some 0, c := some 0 }),
   (py "NotEqualNumeric", { sequence := some 0, a := some 2, b := some 0, c := some 0 }),
   (py "NotEqualNumeric", { sequence := some 0, a := some 1, b := some 2, c := some 3 }),
   (py "LessThanOrEqualAlphabetic", { sequence := some 0, mask := some 32 }),
   (py "LessThanOrEqualAlphabetic", { sequence := some 2, mask := some 0 }),
   (py "LessThanOrEqualAlphabetic", { sequence := some 2, a := some 0, b := some 0, c := some 0 }),
   (py "LessThanOrEqualAlphabetic", { sequence := some 0, a := some 2, b := some 0, c := some 0 }),
   (py "LessThanOrEqualAlphabetic", { sequence := some 0, a := some 1, b := some 2, c := some 3 }),
   (py "LessThanOrEqualNumeric", { sequence := some 0, mask := some 32 }),
   (py "LessThanOrEqualNumeric", { sequence := some 2, mask := some 0 }),
   (py "LessThanOrEqualNumeric", { sequence := some 2, a := some 0, b := some 0, c := some 0 }),
   (py "LessThanOrEqualNumeric", { sequence := some 0, a := some 2, b := some 0, c := some 0 }),
   (py "LessThanOrEqualNumeric", { sequence := some 0, a := some 1, b := some 2, c := some 3 }),
   (py "Transfer", { sequence := some 0, mask := some 32 }),
   (py "Transfer", { sequence := some 2, mask := some 0 }),
   (py "Transfer", { sequence := some 2, a := some 0, b := some 0, c := some 0 }),
   (py "Transfer", { sequence := some 0, a := some 2, b := some 0, c := some 0 }),
   (py "Transfer", { sequence := some 0, a := some 1, b := some 2, c := some 3 }),
   (py "TransferChangeSequence", { sequence := some 0, mask := some 32 }),
   (py "TransferChangeSequence", { sequence := some 2, mask := some 0 }),
   (py "TransferChangeSequence", { sequence := some 2, a := some 0, b := some 0, c := some 0 }),
   (py "TransferChangeSequence", { sequence := some 0, a := some 2, b := some 0, c := some 0 }),
   (py "TransferChangeSequence", { sequence := some 0, a := some 1, b := some 2, c := some 3 }),
   (py "HalfAdd", { sequence := some 0, mask := some 32 }),
   (py "HalfAdd", { sequence := some 2, mask := some 0 }),
   (py "HalfAdd", { sequence := some 2, a := some 0, b := some 0, c := some 0 }),
   (py "HalfAdd", { sequence := some 0, a := some 2, b := some 0, c := some 0 }),
   (py "HalfAdd", { sequence := some 0, a := some 1, b := some 2, c := some 3 }),
   (py "Superimpose", { sequence := some 0, mask := some 32 }),
   (py "Superimpose", { sequence := some 2, mask := some 0 }),
   (py "Superimpose", { sequence := some 2, a := some 0, b := some 0, c := some 0 }),
   (py "Superimpose", { sequence := some 0, a := some 2, b := some 0, c := some 0 }),
   (py "Superimpose", { sequence := some 0, a := some 1, b := some 2, c := some 3 }),
   (py "CheckParity", { sequence := some 0, mask := some 32 }),
   (py "CheckParity", { sequence := some 2, mask := some 0 }),
   (py "CheckParity", { sequence := some 2, a := some 0, b := some 0, c := some 0 }),
   (py "CheckParity", { sequence := some 0, a := some 2, b := some 0, c := some 0 }),
   (py "CheckParity", { sequence := some 0, a := some 1, b := some 2, c := some 3 }),
   (py "BinaryMultiply", { sequence := some 2, a := some 0, b := some 0, c := some 0 }),
   (py "BinaryMultiply", { sequence := some 0, a := some 2, b := some 0, c := some 0 }),
   (py "BinaryMultiply", { sequence := some 0, a := some 1, b := some 2, c := some 3 }),
   (py "DecimalMultiply", { sequence := some 2, a := some 0, b := some 0, c := some 0 }),
   (py "DecimalMultiply", { sequence := some 0, a := some 2, b := some 0, c := some 0 }),
   (py "DecimalMultiply", { sequence := some 0, a := some 1, b := some 2, c := some 3 }),
   (py "BinaryAccumulate", { sequence := some 2, a := some 0, b := some 0, c := some 0 }),
   (py "BinaryAccumulate", { sequence := some 0, a := some 2, b := some 0, c := some 0 }),
   (py "BinaryAccumulate", { sequence := some 0, a := some 1, b := some 2, c := some 3 }),
   (py "DecimalAccumulate", { sequence := some 2, a := some 0, b := some 0, c := some 0 }),
   (py "DecimalAccumulate", { sequence := some 0, a := some 2, b := some 0, c := some 0 }),
   (py "DecimalAccumulate", { sequence := some 0, a := some 1, b := some 2, c := some 3 }),
   (py "MultipleTransfer", { sequence := some 2, a := some 0, b := some 0, c := some 0 }),
   (py "MultipleTransfer", { sequence := some 0, a := some 2, b := some 0, c := some 0 }),
   (py "MultipleTransfer", { sequence := some 0, a := some 1, b := some 2, c := some 3 }),
   (py "TransferNWords", { sequence := some 2, a := some 0, b := some 0, c := some 0 }),
   (py "TransferNWords", { sequence := some 0, a := some 2, b := some 0, c := some 0 }),
   (py "TransferNWords", { sequence := some 0, a := some 1, b := some 2, c := some 3 }),
   (py "ComputeOrthocount", { sequence := some 2, a := some 0, b := some 0, c := some 0 }),
   (py "ComputeOrthocount", { sequence := some 0, a := some 2, b := some 0, c := some 0 }),
   (py "ComputeOrthocount", { sequence := some 0, a := some 1, b := some 2, c := some 3 }),
   (py "ItemTransfer", { sequence := some 2, a := some 0, b := some 0, c := some 0 }),
   (py "ItemTransfer", { sequence := some 0, a := some 2, b := some 0, c := some 0 }),
   (py "ItemTransfer", { sequence := some 0, a := some 1, b := some 2, c := some 3 }),
   (py "ExtendedBinaryAdd", { sequence := some 2, a := some 0, b := some 0, c := some 0 }),
   (py "ExtendedBinaryAdd", { sequence := some 0, a := some 2, b := some 0, c := some 0 }),
   (py "ExtendedBinaryAdd", { sequence := some 0, a := some 1, b := some 2, c := some 3 }),
   (py "ExtendedBinarySubtract", { sequence := some 2, a := some 0, b := some 0, c := some 0 }),
   (py "ExtendedBinarySubtract", { sequence := some 0, a := some 2, b := some 0, c := some 0 }),
   (py "ExtendedBinarySubtract", { sequence := some 0, a := some 1, b := some 2, c := some 3 }),
   (py "RecordTransfer", { sequence := some 2, a := some 0, b := some 0, c := some 0 }),
   (py "RecordTransfer", { sequence := some 0, a := some 2, b := some 0, c := some 0 }),
   (py "RecordTransfer", { sequence := some 0, a := some 1, b := some 2, c := some 3 }),
   (py "ControlProgram", { sequence := some 2, a := some 0, b := some 0, c := some 0 }),
   (py "ControlProgram", { sequence := some 0, a := some 2, b := some 0, c := some 0 }),
   (py "ControlProgram", { sequence := some 0, a := some 1, b := some 2, c := some 3 }),
   (py "ShiftWordAndSubstitute", { sequence := some 2, a := some 0, b := some 0, c := some 0 }),
   (py "ShiftWordAndSubstitute", { sequence := some 0, a := some 2, b := some 0, c := some 0 }),
   (py "ShiftWordAndSubstitute", { sequence := some 0, a := some 1, b := some 2, c := some 3 }),
   (py "ShiftPreservingSignAndSubstitute", { sequence := some 2, a := some 0, b := some 0, c := some 0 }),
   (py "ShiftPreservingSignAndSubstitute", { sequence := some 0, a := some 2, b := some 0, c := some 0 }),
   (py "ShiftPreservingSignAndSubstitute", { sequence := some 0, a := some 1, b := some 2, c := some 3 }),
   (py "ShiftWordAndExtract", { sequence := some 2, a := some 0, b := some 0, c := some 0 }),
   (py "ShiftWordAndExtract", { sequence := some 0, a := some 2, b := some 0, c := some 0 }),
   (py "ShiftWordAndExtract", { sequence := some 0, a := some 1, b := some 2, c := some 3 }),
   (py "ShiftPreservingSignAndExtract", { sequence := some 2, a := some 0, b := some 0, c := some 0 }),
   (py "ShiftPreservingSignAndExtract", { sequence := some 0, a := some 2, b := some 0, c := some 0 }),
   (py "ShiftPreservingSignAndExtract", { sequence := some 0, a := some 1, b := some 2, c := some 3 }),
   (py "ShiftAndSelect", { sequence := some 2, a := some 0, b := some 0, c := some 0 }),
   (py "ShiftAndSelect", { sequence := some 0, a := some 2, b := some 0, c := some 0 }),
   (py "ShiftAndSelect", { sequence := some 0, a := some 1, b := some 2, c := some 3 }),
   (py "Substitute", { sequence := some 2, a := some 0, b := some 0, c := some 0 }),
   (py "Substitute", { sequence := some 0, a := some 2, b := some 0, c := some 0 }),
   (py "Substitute", { sequence := some 0, a := some 1, b := some 2, c := some 3 }),
   (py "Extract", { sequence := some 2, a := some 0, b := some 0, c := some 0 }),
   (py "Extract", { sequence := some 0, a := some 2, b := some 0, c := some 0 }),
   (py "Extract", { sequence := some 0, a := some 1, b := some 2, c := some 3 }),
   (py "ReadForward", { paddr := some (-1) }),
   (py "ReadForward", { paddr := some 64 }),
   (py "ReadBackward", { paddr := some (-1) }),
   (py "ReadBackward", { paddr := some 64 }),
   (py "WriteForward", { paddr := some (-1) }),
   (py "WriteForward", { paddr := some 64 }),
   (py "Rewind", { paddr := some (-1) }),
   (py "Rewind", { paddr := some 64 }),
   (py "PrintAlphabetic", { sequence := some 2, a := some 0, b := some 0, c := some 0 }),
   (py "PrintAlphabetic", { sequence := some 0, a := some 2, b := some 0, c := some 0 }),
   (py "PrintAlphabetic", { sequence := some 0, a := some 1, b := some 2, c := some 3 }),
   (py "PrintDecimal", { sequence := some 2, a := some 0, b := some 0, c := some 0 }),
   (py "PrintDecimal", { sequence := some 0, a := some 2, b := some 0, c := some 0 }),
   (py "PrintDecimal", { sequence := some 0, a := some 1, b := some 2, c := some 3 }),
   (py "PrintOctal", { sequence := some 2, a := some 0, b := some 0, c := some 0 }),
   (py "PrintOctal", { sequence := some 0, a := some 2, b := some 0, c := some 0 }),
   (py "PrintOctal", { sequence := some 0, a := some 1, b := some 2, c := some 3 }),
   (py "Simulator", { sequence := some 2 }),
   (py "FloatingBinaryAdd", { sequence := some 2, a := some 0, b := some 0, c := some 0 }),
   (py "FloatingBinaryAdd", { sequence := some 0, a := some 2, b := some 0, c := some 0 }),
   (py "FloatingBinaryAdd", { sequence := some 0, a := some 1, b := some 2, c := some 3 }),
   (py "FloatingDecimalAdd", { sequence := some 2, a := some 0, b := some 0, c := some 0 }),
   (py "FloatingDecimalAdd", { sequence := some 0, a := some 2, b := some 0, c := some 0 }),
   (py "FloatingDecimalAdd", { sequence := some 0, a := some 1, b := some 2, c := some 3 }),
   (py "FloatingBinarySubtract", { sequence := some 2, a := some 0, b := some 0, c := some 0 }),
   (py "FloatingBinarySubtract", { sequence := some 0, a := some 2, b := some 0, c := some 0 }),
   (py "FloatingBinarySubtract", { sequence := some 0, a := some 1, b := some 2, c := some 3 }),
   (py "FloatingDecimalSubtract", { sequence := some 2, a := some 0, b := some 0, c := some 0 }),
   (py "FloatingDecimalSubtract", { sequence := some 0, a := some 2, b := some 0, c := some 0 }),
   (py "FloatingDecimalSubtract", { sequence := some 0, a := some 1, b := some 2, c := some 3 }),
   (py "FloatingBinaryDivide", { sequence := some 2, a := some 0, b := some 0, c := some 0 }),
   (py "FloatingBinaryDivide", { sequence := some 0, a := some 2, b := some 0, c := some 0 }),
   (py "FloatingBinaryDivide", { sequence := some 0, a := some 1, b := some 2, c := some 3 }),
   (py "FloatingDecimalDivide", { sequence := some 2, a := some 0, b := some 0, c := some 0 }),
   (py "FloatingDecimalDivide", { sequence := some 0, a := some 2, b := some 0, c := some 0 }),
   (py "FloatingDecimalDivide", { sequence := some 0, a := some 1, b := some 2, c := some 3 }),
   (py "FloatingBinaryAddUnnormalized", { sequence := some 2, a := some 0, b := some 0, c := some 0 }),
   (py "FloatingBinaryAddUnnormalized", { sequence := some 0, a := some 2, b := some 0, c := some 0 }),
   (py "FloatingBinaryAddUnnormalized", { sequence := some 0, a := some 1, b := some 2, c := some 3 }),
   (py "FloatingDecimalAddUnnormalized", { sequence := some 2, a := some 0, b := some 0, c := some 0 }),
   (py "FloatingDecimalAddUnnormalized", { sequence := some 0, a := some 2, b := some 0, c := some 0 }),
   (py "FloatingDecimalAddUnnormalized", { sequence := some 0, a := some 1, b := some 2, c := some 3 }),
   (py "FloatingBinarySubtractUnnormalized", { sequence := some 2, a := some 0, b := some 0, c := some 0 }),
   (py "FloatingBinarySubtractUnnormalized", { sequence := some 0, a := some 2, b := some 0, c := some 0 }),
   (py "FloatingBinarySubtractUnnormalized", { sequence := some 0, a := some 1, b := some 2, c := some 3 }),
   (py "FloatingDecimalSubtractUnnormalized", { sequence := some 2, a := some 0, b := some 0, c := some 0 }),
   (py "FloatingDecimalSubtractUnnormalized", { sequence := some 0, a := some 2, b := some 0, c := some 0 }),
   (py "FloatingDecimalSubtractUnnormalized", { sequence := some 0, a := some 1, b := some 2, c := some 3 }),
   (py "FloatingBinaryMultiply", { sequence := some 2, a := some 0, b := some 0, c := some 0 }),
   (py "FloatingBinaryMultiply", { sequence := some 0, a := some 2, b := some 0, c := some 0 }),
   (py "FloatingBinaryMultiply", { sequence := some 0, a := some 1, b := some 2, c := some 3 }),
   (py "FloatingDecimalMultiply", { sequence := some 2, a := some 0, b := some 0, c := some 0 }),
   (py "FloatingDecimalMultiply", { sequence := some 0, a := some 2, b := some 0, c := some 0 }),
   (py "FloatingDecimalMultiply", { sequence := some 0, a := some 1, b := some 2, c := some 3 }),
   (py "MultipleUnload", { sequence := some 2, a := some 0, b := some 0, c := some 0 }),
   (py "MultipleUnload", { sequence := some 0, a := some 2, b := some 0, c := some 0 }),
   (py "MultipleUnload", { sequence := some 0, a := some 1, b := some 2, c := some 3 }),
   (py "FloatingBinaryAddExtendedPrecision", { sequence := some 2, a := some 0, b := some 0, c := some 0 }),
   (py "FloatingBinaryAddExtendedPrecision", { sequence := some 0, a := some 2, b := some 0, c := some 0 }),
   (py "FloatingBinaryAddExtendedPrecision", { sequence := some 0, a := some 1, b := some 2, c := some 3 }),
   (py "FloatingBinarySubtractExtendedPrecision", { sequence := some 2, a := some 0, b := some 0, c := some 0 }),
   (py "FloatingBinarySubtractExtendedPrecision", { sequence := some 0, a := some 2, b := some 0, c := some 0 }),
   (py "FloatingBinarySubtractExtendedPrecision", { sequence := some 0, a := some 1, b := some 2, c := some 3 }),
   (py "FixedBinaryDivide", { sequence := some 2, a := some 0, b := some 0, c := some 0 }),
   (py "FixedBinaryDivide", { sequence := some 0, a := some 2, b := some 0, c := some 0 }),
   (py "FixedBinaryDivide", { sequence := some 0, a := some 1, b := some 2, c := some 3 }),
   (py "FixedDecimalDivide", { sequence := some 2, a := some 0, b := some 0, c := some 0 }),
   (py "FixedDecimalDivide", { sequence := some 0, a := some 2, b := some 0, c := some 0 }),
   (py "FixedDecimalDivide", { sequence := some 0, a := some 1, b := some 2, c := some 3 }),
   (py "FixedToFloatingNormalize", { sequence := some 2, a := some 0, b := some 0, c := some 0 }),
   (py "FixedToFloatingNormalize", { sequence := some 0, a := some 2, b := some 0, c := some 0 }),
   (py "FixedToFloatingNormalize", { sequence := some 0, a := some 1, b := some 2, c := some 3 }),
   (py "Conversion", { sequence := some 2, a := some 0, b := some 0, c := some 0 }),
   (py "Conversion", { sequence := some 0, a := some 2, b := some 0, c := some 0 }),
   (py "Conversion", { sequence := some 0, a := some 1, b := some 2, c := some 3 }),
   (py "FloatingLessThanNormalized", { sequence := some 2, a := some 0, b := some 0, c := some 0 }),
   (py "FloatingLessThanNormalized", { sequence := some 0, a := some 2, b := some 0, c := some 0 }),
   (py "FloatingLessThanNormalized", { sequence := some 0, a := some 1, b := some 2, c := some 3 }),
   (py "FloatingNotEqualNormalized", { sequence := some 2, a := some 0, b := some 0, c := some 0 }),
   (py "FloatingNotEqualNormalized", { sequence := some 0, a := some 2, b := some 0, c := some 0 }),
   (py "FloatingNotEqualNormalized", { sequence := some 0, a := some 1, b := some 2, c := some 3 })]

/-- Constants. -/
def constants : List (Str × Int × Py Int) :=
  [(py "AlphanumericConstant", 0, .ok 0),
   (py "AlphanumericConstant", 0, .ok 0),
   (py "AlphanumericConstant", 1, .ok 1),
   (py "AlphanumericConstant", 4095, .ok 4095),
   (py "AlphanumericConstant", 4096, .ok 4096),
   (py "AlphanumericConstant", 281474976710655, .ok 281474976710655),
   (py "DecimalConstant", 0, .ok 0),
   (py "DecimalConstant", 0, .ok 0),
   (py "DecimalConstant", 1, .ok 1),
   (py "DecimalConstant", 4095, .ok 4095),
   (py "DecimalConstant", 4096, .ok 4096),
   (py "DecimalConstant", 281474976710655, .ok 281474976710655),
   (py "ExtendedBinaryConstant", 0, .ok 0),
   (py "ExtendedBinaryConstant", 0, .ok 0),
   (py "ExtendedBinaryConstant", 1, .ok 1),
   (py "ExtendedBinaryConstant", 4095, .ok 4095),
   (py "ExtendedBinaryConstant", 4096, .ok 4096),
   (py "ExtendedBinaryConstant", 281474976710655, .ok 281474976710655),
   (py "FloatingBinaryConstant", 0, .ok 0),
   (py "FloatingBinaryConstant", 0, .ok 0),
   (py "FloatingBinaryConstant", 1, .ok 1),
   (py "FloatingBinaryConstant", 4095, .ok 4095),
   (py "FloatingBinaryConstant", 4096, .ok 4096),
   (py "FloatingBinaryConstant", 281474976710655, .ok 281474976710655),
   (py "FloatingDecimalConstant", 0, .ok 0),
   (py "FloatingDecimalConstant", 0, .ok 0),
   (py "FloatingDecimalConstant", 1, .ok 1),
   (py "FloatingDecimalConstant", 4095, .ok 4095),
   (py "FloatingDecimalConstant", 4096, .ok 4096),
   (py "FloatingDecimalConstant", 281474976710655, .ok 281474976710655),
   (py "FixedBinaryConstant", 0, .ok 0),
   (py "FixedBinaryConstant", 0, .ok 0),
   (py "FixedBinaryConstant", 1, .ok 1),
   (py "FixedBinaryConstant", 4095, .ok 4095),
   (py "FixedBinaryConstant", 4096, .ok 4096),
   (py "FixedBinaryConstant", 281474976710655, .ok 281474976710655),
   (py "OctalConstant", 0, .ok 0),
   (py "OctalConstant", 0, .ok 0),
   (py "OctalConstant", 1, .ok 1),
   (py "OctalConstant", 4095, .ok 4095),
   (py "OctalConstant", 4096, .ok 4096),
   (py "OctalConstant", 281474976710655, .ok 281474976710655)]

/-- Invalid constants. -/
def invalidConstants : List (Str × Int) :=
  [(py "AlphanumericConstant", (-1)),
   (py "AlphanumericConstant", 281474976710656),
   (py "DecimalConstant", (-1)),
   (py "DecimalConstant", 281474976710656),
   (py "ExtendedBinaryConstant", (-1)),
   (py "ExtendedBinaryConstant", 281474976710656),
   (py "FloatingBinaryConstant", (-1)),
   (py "FloatingBinaryConstant", 281474976710656),
   (py "FloatingDecimalConstant", (-1)),
   (py "FloatingDecimalConstant", 281474976710656),
   (py "FixedBinaryConstant", (-1)),
   (py "FixedBinaryConstant", 281474976710656),
   (py "OctalConstant", (-1)),
   (py "OctalConstant", 281474976710656)]

example : ∀ t ∈ simple, value t.1 t.2.1 = t.2.2 ∧ (value t.1 t.2.1).toOption.isSome := by decide +kernel

example : ∀ t ∈ invalid, value t.1 t.2 = .error .valueError := by decide +kernel

example : ∀ t ∈ constants, constant t.1 t.2.1 = t.2.2 := by decide +kernel

example : ∀ t ∈ invalidConstants, constant t.1 t.2 = .error .valueError := by decide +kernel

end H800.Tests
