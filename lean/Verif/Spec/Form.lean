import Verif.Spec.Instruction

/-!
The forms in which a machine instruction can be written, with their operands, as the reference
manual describes them (quoted in `h800/instruction.py` 1-62).
-/

namespace H800.Spec

/-- A form and its operands. -/
inductive Form where
  | masked (s m : Int)
  | unmasked (s a b c : Int)
  | peripheral (p : Int)
  | print (s a b c : Int)
  | simulator (s : Int)
  deriving DecidableEq, Repr

/-- The operands are in range. -/
def Form.InRange : Form → Prop
  | .masked s m => Bit s ∧ Fits 5 m
  | .unmasked s a b c => Bit s ∧ Bit a ∧ Bit b ∧ Bit c
  | .peripheral p => Fits 6 p
  | .print s a b c => Bit s ∧ Bit a ∧ Bit b ∧ Bit c
  | .simulator s => Bit s

/-- The forms an opcode of a given type can take: a maskable opcode can be written masked or
unmasked. -/
def Form.Suits (type : Str) : Form → Prop
  | .masked _ _ => type = py "maskable"
  | .unmasked _ _ _ _ => type = py "maskable" ∨ type = py "unmasked"
  | .peripheral _ => type = py "peripheral"
  | .print _ _ _ _ => type = py "print"
  | .simulator _ => type = py "simulator"

instance Form.decInRange (f : Form) : Decidable f.InRange := by cases f <;> unfold Form.InRange <;> infer_instance

instance Form.decSuits (t : Str) (f : Form) : Decidable (f.Suits t) := by
  cases f <;> unfold Form.Suits <;> infer_instance

/-- The command code of a form, from the opcode's bits 2-3, bit 7 and low five bits. -/
def Form.code (b23 b7 op : Int) : Form → Int
  | .masked s m => maskedCode s m b7 op
  | .unmasked s a b c => unmaskedCode s b23 a b c op
  | .peripheral p => peripheralCode p b7 op
  | .print s a b c => printCode s a b c b7 op
  | .simulator s => simulatorCode s op

/-- The pairs of distinct mnemonics that share codes. -/
def Clash (f : Form) (m m' : Str) : Prop :=
  (m ∈ [py "PRA", py "PRD", py "PRO"] ∧ m' ∈ [py "PRA", py "PRD", py "PRO"]) ∨
  ((∃ s a b c, f = .unmasked s a b c) ∧
    ((m = py "NA" ∧ m' = py "FNN") ∨ (m = py "FNN" ∧ m' = py "NA")))

end H800.Spec
