import Verif.Spec.Groups
import Verif.Spec.Form

/-!
The parts of an instruction word as the reference manual describes them (Section III, Figure III-2):
for every form of an instruction the bits of the word, the number of these bits and what they hold.
Nothing here refers to what the model computes; the subscripts are Python's.
-/

namespace H800.Spec

/-- The bits `s` to `e` of a word. -/
abbrev bits (s e : Int) : Key := .slice (some s) (some e)

/-- The command code, bits 1 to 12. `b23` are the bits 2 and 3 of the operation code of an unmasked
instruction, `op` the bits 8 to 12. -/
def commandParts (b23 op : Int) : Form → List (Key × Nat × Int)
  | .masked s m => [(.idx 1, 1, s), (bits 2 6, 5, m), (.idx 7, 1, 1), (bits 8 12, 5, op)]
  | .unmasked s a b c => [(.idx 1, 1, s), (bits 2 3, 2, b23), (.idx 4, 1, a), (.idx 5, 1, b),
      (.idx 6, 1, c), (.idx 7, 1, 0), (bits 8 12, 5, op)]
  | .peripheral p => [(bits 1 3, 3, p / 8), (bits 4 6, 3, p % 8), (.idx 7, 1, 1), (bits 8 12, 5, op)]
  | .print s a b c => [(.idx 1, 1, s), (bits 2 3, 2, 0), (.idx 4, 1, a), (.idx 5, 1, b),
      (.idx 6, 1, c), (.idx 7, 1, 1), (bits 8 12, 5, op)]
  | .simulator s => [(.idx 1, 1, s), (bits 2 9, 8, 0), (bits 10 12, 3, 7)]

/-- The whole word: the command code and the three address groups. -/
def wordParts (b23 op : Int) (f : Form) (a b c : Int) : List (Key × Nat × Int) :=
  commandParts b23 op f ++ [(bits 13 24, 12, a), (bits 25 36, 12, b), (bits 37 48, 12, c)]

/-- The bits of a word that are the operation code: 7 to 12 for masked, peripheral and print
instructions, 2, 3 and 7 to 12 for the unmasked ones, 10 to 12 for simulator instructions. -/
def opKeys : Form → List Key
  | .masked _ _ | .peripheral _ | .print _ _ _ _ => [bits 7 12]
  | .unmasked _ _ _ _ => [bits 2 3, bits 7 12]
  | .simulator _ => [bits 10 12]

/-- Two forms of the same kind. -/
def SameKind : Form → Form → Prop
  | .masked _ _, .masked _ _ | .peripheral _, .peripheral _ | .print _ _ _ _, .print _ _ _ _
  | .unmasked _ _ _ _, .unmasked _ _ _ _ | .simulator _, .simulator _ => True
  | _, _ => False

/-- The three mnemonics of the one print instruction of the machine. -/
def BothPrint (m m' : Str) : Prop :=
  m ∈ [py "PRA", py "PRD", py "PRO"] ∧ m' ∈ [py "PRA", py "PRD", py "PRO"]

end H800.Spec
