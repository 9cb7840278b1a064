import Verif.Py

/-!
Tables of the manuals in `/repo/docs` and of `/repo/notes.md`, copied from there and not from the code.
-/

namespace H800.Spec

/-- Table I of the Programmers' Reference Manual (docs/prm/images/table_I.png), column "High Speed
Printer", in the order of the Honeywell 1800 code, eight codes a line: `Blank` is written ' ', `CR` is
the newline, and the black square is U+2588. -/
def tableI : List Char :=
  ['0', '1', '2', '3', '4', '5', '6', '7',
   '8', '9', '\'', '=', ':', ' ', ' ', '&',
   '+', 'A', 'B', 'C', 'D', 'E', 'F', 'G',
   'H', 'I', ';', '.', ')', '%', '█', ' ',
   '-', 'J', 'K', 'L', 'M', 'N', 'O', 'P',
   'Q', 'R', '#', '$', '*', '"', ' ', ' ',
   ' ', '/', 'S', 'T', 'U', 'V', 'W', 'X',
   'Y', 'Z', '@', ',', '(', '\n', ' ', ' ']

/-- A digit or a capital letter. -/
def Alnum (x : Char) : Prop := ('0' ≤ x ∧ x ≤ '9') ∨ ('A' ≤ x ∧ x ≤ 'Z')

instance (x : Char) : Decidable (Alnum x) := by unfold Alnum; infer_instance

/-- A word of six-bit codes, the first one most significant. -/
def packed (codes : List Int) : Int := codes.foldl (fun n c => 64 * n + c) 0

/-- Order of the dictionary, by the alphabet digits before letters (the order of `Char`). -/
def Before : List Char → List Char → Prop
  | _, [] => False
  | [], _ :: _ => True
  | x :: s, y :: t => x < y ∨ (x = y ∧ Before s t)

/-- The mnemonics listed under "Instruction Set" in notes.md 26-98. -/
def notesMnemonics : List Str :=
  [py "BA", py "BD", py "BM", py "BS", py "BT", py "CC", py "COREDUMP", py "CP", py "CSCON", py "DA",
   py "DD", py "DM", py "DOFF", py "DON", py "DS", py "DT", py "DUMP", py "EBA", py "EBS", py "EX",
   py "FBA", py "FBAE", py "FBAU", py "FBD", py "FBM", py "FBS", py "FBSE", py "FBSU", py "FCON",
   py "FDA", py "FDAU", py "FDD", py "FDM", py "FDS", py "FDSU", py "FFN", py "FLN", py "FNN",
   py "HA", py "IT", py "LA", py "LN", py "MPC", py "MT", py "NA", py "NN", py "PR", py "PRA",
   py "PRD", py "PRO", py "RB", py "RF", py "RT", py "RW", py "S", py "SCON", py "SIMULATE", py "SM",
   py "SPCR", py "SPE", py "SPS", py "SS", py "SSL", py "STOP", py "SWE", py "SWS", py "TN", py "TS",
   py "TX", py "ULD", py "WA", py "WD", py "WF"]

/-- The control instructions: headings of Section VIII of the manual of assembly language
(docs/argus/ARGUS_Manual_of_Assembly_Language.md 927-1047). -/
def manualControl : List Str :=
  [py "SETLOC", py "EVEN", py "SIMULATE", py "MODLOC", py "ASSIGN", py "TAS", py "EQUALS",
   py "RESERVE", py "MASKGRP", py "END"]

/-- The constants: headings of Section IX (1061-1287). -/
def manualConstants : List Str :=
  [py "ALF", py "OCT", py "DEC", py "FXBIN", py "FLDEC", py "FLBIN", py "EBC", py "SPEC", py "CAC",
   py "MASKBASE", py "CONTROL", py "M", py "TAC", py "LINK", py "SEGNAME", py "SUBCALL"]

/-- The directors of the input deck: headings of Section XI (1380-1534). -/
def manualDirectors : List Str :=
  [py "ARGUS", py "U", py "MACRODEF", py "FINIS", py "ELIMSEG", py "SEGMENT", py "PROGRAM",
   py "TESTDATA", py "ELIMDATA", py "ELIMDERL", py "DELETE", py "ENDARGUS"]

/-- A mnemonic documented in the notes or the manual. -/
def Documented (m : Str) : Prop :=
  m ∈ notesMnemonics ∨ m ∈ manualControl ∨ m ∈ manualConstants ∨ m ∈ manualDirectors

instance (m : Str) : Decidable (Documented m) := by unfold Documented; infer_instance

end H800.Spec
