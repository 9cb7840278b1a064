import Verif.Spec.Bits
import Verif.Py

/-!
The command-code layouts of the Programmer's Reference Manual, as quoted in `h800/instruction.py`
lines 36-62, written as plain sums of weighted fields.
-/

namespace H800.Spec

/-- A 0/1 operand. -/
def Bit (x : Int) : Prop := x = 0 ∨ x = 1

instance (x : Int) : Decidable (Bit x) := inferInstanceAs (Decidable (_ ∨ _))

/-- An absent operand, or one that satisfies `P`. -/
def OptIs (P : Int → Prop) (x : Option Int) : Prop := ∀ v, x = some v → P v

instance (P : Int → Prop) [DecidablePred P] (x : Option Int) : Decidable (OptIs P x) :=
  match x with
  | none => isTrue (by intro v h; cases h)
  | some v => if h : P v then isTrue (by intro w e; cases e; exact h)
      else isFalse (fun g => h (g v rfl))

/-- `S MASK 1 OPCODE`. -/
def maskedCode (s m b7 op : Int) : Int := s * 2 ^ 11 + m * 2 ^ 6 + b7 * 2 ^ 5 + op

/-- `S xx A B C 0 OPCODE`. -/
def unmaskedCode (s b23 a b c op : Int) : Int :=
  s * 2 ^ 11 + b23 * 2 ^ 9 + a * 2 ^ 8 + b * 2 ^ 7 + c * 2 ^ 6 + op

/-- `PADDR 1 OPCODE`. -/
def peripheralCode (p b7 op : Int) : Int := p * 2 ^ 6 + b7 * 2 ^ 5 + op

/-- `S 00 A B C 1 OPCODE`. -/
def printCode (s a b c b7 op : Int) : Int :=
  s * 2 ^ 11 + a * 2 ^ 8 + b * 2 ^ 7 + c * 2 ^ 6 + b7 * 2 ^ 5 + op

/-- `S 000000 OPCODE`. -/
def simulatorCode (s op : Int) : Int := s * 2 ^ 11 + op

/-- The operand combinations an instruction accepts. -/
def LegalOperands (maskable : Prop) (sequence mask a b c paddr : Option Int) : Prop :=
  OptIs Bit sequence ∧ OptIs Bit a ∧ OptIs Bit b ∧ OptIs Bit c ∧
  OptIs (fun m => maskable ∧ a = none ∧ b = none ∧ c = none ∧ paddr = none ∧ Fits 5 m) mask ∧
  OptIs (fun p => sequence = none ∧ mask = none ∧ a = none ∧ b = none ∧ c = none ∧ Fits 6 p) paddr

/-- An opcode record whose own fields are in range. -/
def LegalRecord (b23 b7 : Option Int) (op : Int) : Prop :=
  OptIs (Fits 2) b23 ∧ OptIs (Fits 1) b7 ∧ Fits 5 op

end H800.Spec
