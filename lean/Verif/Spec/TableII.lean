import Verif.Spec.DocTable

/-!
Table II ("Honeywell 1800 Command Codes") of the Programmers' Reference Manual
(docs/prm/images/table_II.png), copied from the picture and not from the code. The columns of the
picture are kept: the first seven bits are given for a whole group of instructions, the last five for
each instruction. `s` is the sequence/cosequence bit, `a`, `b`, `c` are the memory designators,
`mmmmm` is the mask address, `pppppp` the peripheral address, and `x` is irrelevant or, for the
simulator instruction, part of the address of the routine.
-/

namespace H800.Spec

/-- Table II: the forms of bits 1-7 of a group, and the instructions of the group with bits 8-12. -/
def tableII : List (List Str × List (Str × Str)) :=
  -- general, unmasked or masked
  [([py "smmmmm1", py "s10abc0"],
    [(py "BA", py "01001"), (py "DA", py "00001"), (py "WA", py "01101"), (py "BS", py "11001"),
     (py "DS", py "10001"), (py "WD", py "11101"), (py "NA", py "01100"), (py "NN", py "01000"),
     (py "LA", py "11100"), (py "LN", py "11000"), (py "TX", py "10000"), (py "TS", py "00100"),
     (py "HA", py "10101"), (py "SM", py "00101"), (py "CP", py "10100")]),
  -- general, unmasked
   ([py "s00abc0"], [(py "BM", py "01011"), (py "DM", py "00011")]),
   ([py "s10abc0"], [(py "BT", py "01011"), (py "DT", py "00011")]),
   ([py "s00abc0"], [(py "MT", py "10000")]),
   ([py "s01abc0"], [(py "TN", py "10000"), (py "CC", py "01000"), (py "IT", py "11000")]),
   ([py "s11abc0"], [(py "EBA", py "01011"), (py "EBS", py "11011"), (py "RT", py "11000")]),
   ([py "s10abc0"], [(py "MPC", py "00000")]),
   ([py "x000xx0"], [(py "PR", py "00000")]),
  -- inherent mask
   ([py "s10abc0"],
    [(py "SWS", py "00110"), (py "SPS", py "00010"), (py "SWE", py "01110"), (py "SPE", py "01010"),
     (py "SSL", py "10110")]),
   ([py "s00abc0"], [(py "SS", py "00110"), (py "EX", py "01110")]),
  -- peripheral and print
   ([py "pppppp1"],
    [(py "RF", py "11010"), (py "RB", py "01010"), (py "WF", py "01110"), (py "RW", py "00010")]),
   ([py "sxxabc1"], [(py "PRA", py "00110"), (py "PRD", py "00110"), (py "PRO", py "00110")]),
  -- simulator, direct and indexed
   ([py "0xxxxxx", py "1xxxxxx"], [(py "S", py "xx111")]),
  -- scientific
   ([py "s01abc0"],
    [(py "FBA", py "00001"), (py "FDA", py "10001"), (py "FBS", py "01001"), (py "FDS", py "11001"),
     (py "FBD", py "00101"), (py "FDD", py "10101")]),
   ([py "s11abc0"],
    [(py "FBAU", py "00001"), (py "FDAU", py "10001"), (py "FBSU", py "01001"),
     (py "FDSU", py "11001"), (py "FBM", py "00101"), (py "FDM", py "10101"), (py "ULD", py "01101")]),
   ([py "s00abc0"],
    [(py "FBAE", py "00001"), (py "FBSE", py "01001"), (py "BD", py "00101"), (py "DD", py "10101"),
     (py "FFN", py "01101"), (py "FCON", py "11101"), (py "FLN", py "11000")]),
   ([py "s10abc0"], [(py "FNN", py "01100")])]

/-- The mnemonics with their forms of twelve positions. -/
def tableIIForms : List (Str × Str) :=
  tableII.flatMap fun g => g.2.flatMap fun r => g.1.map fun p => (r.1, p ++ r.2)

/-- The manual gives the twelve-bit code `c` to instruction `m`. -/
def ManualCode (m : Str) (c : Int) : Prop :=
  Fits 12 c ∧ ∃ p, (m, p) ∈ tableIIForms ∧ FixedAgree p c

/-- The manual gives the code `c` to instruction `m`, in a form whose irrelevant positions are zero. -/
def ManualCodeZero (m : Str) (c : Int) : Prop :=
  Fits 12 c ∧ ∃ p, (m, p) ∈ tableIIForms ∧ FixedAgree p c ∧ fieldAt 'x' p c = 0

end H800.Spec
