import Verif.Spec.Bits
import Verif.Spec.Instruction
import Verif.Spec.Registers
import Verif.Spec.IntText
import Verif.Model.Messages

/-!
What is wrong with a call that is refused, and how it is said.
-/

namespace H800.Spec

/-- The shortest decimal numeral of a number. -/
def Shortest (n : Int) (s : Str) : Prop := ZeroFilled 0 n s

/-- The field has a bit with this index. -/
def HasBit (b : BitField) (i : Int) : Prop :=
  0 ≤ weightExp b.numbering.code b.width i ∧ weightExp b.numbering.code b.width i < b.width

/-- The bit with index `s` stands to the right of the one with index `e`. -/
def RightOf (b : BitField) (s e : Int) : Prop :=
  match b.order with
  | .msbLeft => weightExp b.numbering.code b.width s < weightExp b.numbering.code b.width e
  | .lsbLeft => weightExp b.numbering.code b.width e < weightExp b.numbering.code b.width s

/-- An index stands in the call. -/
def NamesBit : BfCall → Int → Prop
  | .get (.idx i), j => j = i
  | .get (.slice s e), j => s = some j ∨ e = some j
  | .put (.idx i) _, j => j = i
  | .put (.slice s e) _, j => s = some j ∨ e = some j
  | .setValue _, _ => False
  | .set i, j => i = some j ∧ j ≠ 0
  | .clear i, j => i = some j ∧ j ≠ 0
  | .isBit i _, j => j = i
  | .isRange s e _, j => s = some j ∨ e = some j

/-- The call is about the bits from `s` to `e`. -/
def NamesRange : BfCall → Int → Int → Prop
  | .get k, s, e => k = .slice (some s) (some e)
  | .put k _, s, e => k = .slice (some s) (some e)
  | .isRange s' e' _, s, e => s' = some s ∧ e' = some e
  | _, _, _ => False

/-- The call is to write `x` into `n` bits. -/
def Writes (b : BitField) : BfCall → Int → Nat → Prop
  | .put (.idx _) x, y, n => y = x ∧ n = 1
  | .put (.slice (some s) (some e)) x, y, n => y = x ∧
      n = (weightExp b.numbering.code b.width s - weightExp b.numbering.code b.width e).natAbs + 1
  | .setValue x, y, n => y = x ∧ n = b.width
  | _, _, _ => False

/-- What is wrong with a call, and how it is said; `layout` names the layout of the field. -/
inductive BfFault (layout : Str) (b : BitField) (call : BfCall) : Str → Prop
  | index {i : Int} {w : Str} : NamesBit call i → ¬ HasBit b i → Shortest b.width w →
      BfFault layout b call (py "Invalid index for " ++ w ++ py "-bit bit-field!")
  | range {s e : Int} : NamesRange call s e → HasBit b s → HasBit b e → RightOf b s e →
      BfFault layout b call (py "Invalid bit range for " ++ layout ++ py " bit-field!")
  | value {x : Int} {n : Nat} {w : Str} : Writes b call x n → 2 ^ n < x → Shortest n w →
      BfFault layout b call (py "Value is greater than allowed for " ++ w ++ py "-bit field!")
  | truth {s e : Option Int} {x : Int} : call = .isRange s e x → x ≠ 0 → x ≠ 1 →
      BfFault layout b call (py "Bit-field Value must be 0 or 1!")

/-- No bound is missing. -/
def Bounded : BfCall → Prop
  | .get (.slice s e) => s ≠ none ∧ e ≠ none
  | .put (.slice s e) _ => s ≠ none ∧ e ≠ none
  | .isRange s e _ => s ≠ none ∧ e ≠ none
  | _ => True

/-- The layout of a bit-field, as its most and least significant bits are seen from left to right. -/
def layoutOf : Order → Str
  | .msbLeft => py "MSB...LSB"
  | .lsbLeft => py "LSB...MSB"

/-- What is wrong with the arguments of the constructor of a bit-field, and how it is said. -/
inductive NewBfFault (value : Int) (width : Nat) (numbering order : Int) : Str → Prop
  | width : 64 < width → NewBfFault value width numbering order
      (py "Width is greater than maximum allowed!")
  | value : 2 ^ width ≤ value → NewBfFault value width numbering order
      (py "Value is greater than maximum allowed by bit-field width!")
  | numbering : (∀ n : Numbering, numbering ≠ n.code) → NewBfFault value width numbering order
      (py "Invalid bit numbering scheme!")
  | order : order ≠ 0 → order ≠ 1 → NewBfFault value width numbering order
      (py "Invalid bit order, must be left or right!")

/-- What is wrong with the operands of an instruction, and how it is said. -/
inductive OperandFault (o : Opcode) (sequence mask a b c paddr : Option Int) : Str → Prop
  | sequencePaddr {s p : Int} : sequence = some s → paddr = some p →
      OperandFault o sequence mask a b c paddr (py "Cannot specify sequence and peripheral address!")
  | sequence {s : Int} : sequence = some s → ¬ Bit s →
      OperandFault o sequence mask a b c paddr (py "Sequence must be boolean!")
  | notMaskable {m : Int} : mask = some m → o.type ≠ py "maskable" →
      OperandFault o sequence mask a b c paddr
        (py "Mask supplied to an instruction that is not maskable!")
  | maskOther {m x : Int} : mask = some m → some x ∈ [a, b, c, paddr] →
      OperandFault o sequence mask a b c paddr
        (py "Cannot specify A, B, C, or peripheral address with mask!")
  | mask {m : Int} : mask = some m → ¬ Fits 5 m →
      OperandFault o sequence mask a b c paddr (py "Mask must be in the range 0..31!")
  | a {x : Int} : a = some x → ¬ Bit x →
      OperandFault o sequence mask a b c paddr (py "A must be boolean!")
  | b {x : Int} : b = some x → ¬ Bit x →
      OperandFault o sequence mask a b c paddr (py "B must be boolean!")
  | c {x : Int} : c = some x → ¬ Bit x →
      OperandFault o sequence mask a b c paddr (py "C must be boolean!")
  | paddrOther {p x : Int} : paddr = some p → some x ∈ [sequence, mask, a, b, c] →
      OperandFault o sequence mask a b c paddr
        (py "Cannot specify sequence, mask, A, B, or C with peripheral address!")
  | paddr {p : Int} : paddr = some p → ¬ Fits 6 p →
      OperandFault o sequence mask a b c paddr (py "Peripheral address must be in the range 0..63!")
  | bit7 {x : Int} : o.b7 = some x → ¬ Bit x →
      OperandFault o sequence mask a b c paddr (py "Bit 7 must be in the range 0..1!")
  | bits23 {x : Int} : o.b23 = some x → ¬ Fits 2 x →
      OperandFault o sequence mask a b c paddr (py "Bits 2-3 must be in the range 0..3!")
  | opcode : ¬ Fits 5 o.op →
      OperandFault o sequence mask a b c paddr (py "Opcode must be in the range 0..31!")

/-- What is wrong with the arguments of the constructor of a register, and how it is said. -/
inductive NewRegFault (data : Int) (name : Option Str) (width : Int) : Str → Prop
  | value {w : Str} : (∀ W : Nat, width = W → ¬ Fits W data) → Shortest width w →
      NewRegFault data name width (py "Invalid value for " ++ w ++ py "-bit register!")
  | name {n : Str} : name = some n → n ≠ [] → n ∉ regNames → n ∉ aliasNames →
      NewRegFault data name width (py "Invalid register name " ++ n ++ py "!")
  | width {w : Str} : width ≠ 16 → width ≠ 24 → Shortest width w →
      NewRegFault data name width (py "Invalid register width " ++ w ++ py ", must be 16 or 24!")

/-- What is wrong with a subscript of a group, and how it is said; `Names` are the names that the
registers go by. -/
inductive GroupKeyFault (names : List Str) : GKey → Str → Prop
  | slice : GroupKeyFault names .slice (py "Slices not supported!")
  | name {s : Str} : s ∉ names →
      GroupKeyFault names (.name s) (py "Invalid register name " ++ s ++ py "!")
  | num {n : Int} {w : Str} : ¬ (0 ≤ n ∧ n < 32) → Shortest n w →
      GroupKeyFault names (.num n) (py "Invalid register number " ++ w ++ py "!")

/-- What is wrong with a subscript of a register file, and how it is said. -/
inductive FileKeyFault (shown : Str) : FKey → Str → Prop
  | slice : FileKeyFault shown .slice (py "Slices not supported!")
  | other : FileKeyFault shown .other (py "Invalid register group number " ++ shown ++ py "!")
  | num {n : Int} {w : Str} : ¬ (0 ≤ n ∧ n < 8) → Shortest n w →
      FileKeyFault shown (.num n) (py "Invalid register group number " ++ w ++ py "!")

end H800.Spec
