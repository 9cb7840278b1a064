import Verif.Model.BitFieldMisc
import Verif.Props.BitField
import Verif.Props.Registers
import Verif.Props.Word

/-!
Properties C119, C120 and C199: index conversions, truth values and unused helpers of bit-fields.
-/

namespace H800

open Spec

/-- C119: `_rindex` and `_vindex` are inverse to each other, positions counting from the left end; and
`_lsbIndex`, `_msbIndex` of the positions of two bits give the positions of the less and the more
significant one. -/
theorem C119_positions (b : BitField) (i j : Int) :
    b.vindex (b.rindex i) = i ∧ b.rindex (b.vindex i) = i ∧
    weightExp b.numbering.code b.width (b.vindex (b.lsbIndex (b.rindex i) (b.rindex j))) =
      min (weightExp b.numbering.code b.width i) (weightExp b.numbering.code b.width j) ∧
    weightExp b.numbering.code b.width (b.vindex (b.msbIndex (b.rindex i) (b.rindex j))) =
      max (weightExp b.numbering.code b.width i) (weightExp b.numbering.code b.width j) := by
  obtain ⟨W, v, n, o⟩ := b
  refine ⟨?_, ?_, ?_, ?_⟩ <;> cases n <;> cases o <;>
    simp only [BitField.rindex, BitField.vindex, BitField.lsbIndex, BitField.msbIndex, weightExp,
      Numbering.code] <;> omega

/-- C119 on an MSB_1 field of 8 bits: bit 3 is the more significant one of bits 3 and 6. -/
example : let b : BitField := ⟨8, 0, .msb1, .msbLeft⟩
    b.vindex (b.msbIndex (b.rindex 3) (b.rindex 6)) = 3 ∧
    b.vindex (b.lsbIndex (b.rindex 3) (b.rindex 6)) = 6 := by decide

/-- C120, the property as stated: a bit-field, a register and a word are true in a condition exactly if
they are not zero. -/
def C120_statement : Prop :=
  (∀ b : BitField, b.truth = true ↔ b.toInt ≠ 0) ∧
  (∀ r : Register, RegisterReach r → (r.truth = true ↔ r.value ≠ 0)) ∧
  (∀ w : Word, w.truth = true ↔ w.value ≠ 0)

/-- C120 fails in all three parts: zero is true. -/
theorem C120_refuted : ¬ C120_statement ∧
    (∃ b, BitField.init 0 8 0 1 = .ok b ∧ b.toInt = 0 ∧ b.truth = true) ∧
    (∃ r, Register.init 0 none 16 = .ok r ∧ r.value = 0 ∧ r.truth = true) ∧
    (∃ w, Word.init 0 = .ok w ∧ w.value = 0 ∧ w.truth = true) := by
  have h1 : ∃ b, BitField.init 0 8 0 1 = .ok b ∧ b.toInt = 0 ∧ b.truth = true :=
    ⟨⟨8, 0, .lsb0, .lsbLeft⟩, by decide, by decide, by decide⟩
  refine ⟨?_, h1, ?_, ?_⟩
  · intro h
    obtain ⟨b, -, h2, h3⟩ := h1
    exact (h.1 b).1 h3 h2
  · exact ⟨⟨⟨16, 0, .msb1, .msbLeft⟩, none, 16⟩, by decide, by decide, by decide⟩
  · exact ⟨⟨⟨48, 0, .msb1, .msbLeft⟩⟩, by decide, by decide, by decide⟩

/-- C120, what holds: the truth value says nothing about the value. A bit-field is true exactly if its
width is not 0, a register and a word always; `int()`, the use as an index and `value` agree. -/
theorem C120_width_partial (b : BitField) (r : Register) (hr : RegisterReach r) (w : Word) :
    (b.truth = true ↔ b.width ≠ 0) ∧ r.truth = true ∧ w.truth = true ∧
    b.toInt = b.value ∧ b.index = b.value ∧
    (∀ op : BfOp, (op.run b).1.len = b.len ∧ (op.run b).1.truth = b.truth) := by
  refine ⟨?_, ?_, rfl, rfl, rfl, ?_⟩
  · exact decide_eq_true_iff
  · have h := (registerReach_shape hr).1
    have h0 : r.width ≠ 0 := by omega
    exact decide_eq_true h0
  · intro op
    have h := (C12_failure_atomic b op).2.1
    simp only [BitField.len, BitField.truth, h, and_self]

/-- C199: `_getBitValue(index, value, width)` is bit `index` of `value`, counted from the least
significant one in every numbering scheme and order; it fails, with ValueError, exactly if the width is
negative or greater than the maximum of the field, the value is greater than `2 ** width`, or the index
is negative. -/
theorem C199_bit_value (b : BitField) (index value : Int) (width : Option Int) :
    (∀ x, b.getBitValue index value width = .ok x ↔
      (0 ≤ width.getD b.width ∧ width.getD b.width ≤ 2 ^ b.width - 1 ∧
        value ≤ 2 ^ (width.getD b.width).toNat ∧ 0 ≤ index) ∧ x = bitOf value index.toNat) ∧
    ∀ e, b.getBitValue index value width = .error e → e = .valueError := by
  have key : ∀ P : Prop, ∀ [Decidable P], (P = (0 ≤ width.getD (b.width : Int) ∧ width.getD (b.width : Int) ≤ 2 ^ b.width - 1 ∧
        value ≤ 2 ^ (width.getD (b.width : Int)).toNat ∧ 0 ≤ index)) →
      b.getBitValue index value width =
        if P then .ok (bitOf value index.toNat) else .error .valueError := by
    intro P _ hP
    unfold BitField.getBitValue BitField.checkValue shr pow2 BitField.maxval
    by_cases h1 : width.getD (b.width : Int) < 0 ∨ width.getD (b.width : Int) > 2 ^ b.width - 1
    · rw [if_neg (c := P) (by rw [hP]; omega)]
      simp only [if_pos h1]
      rfl
    · by_cases h2 : value > 2 ^ (width.getD (b.width : Int)).toNat
      · rw [if_neg (c := P) (by rw [hP]; omega)]
        simp only [if_neg h1, if_pos h2]
        rfl
      · by_cases h3 : index < 0
        · rw [if_neg (c := P) (by rw [hP]; omega)]
          simp only [if_neg h1, if_neg h2, if_pos h3]
          rfl
        · rw [if_pos (c := P) (by rw [hP]; omega)]
          simp only [if_neg h1, if_neg h2, if_neg h3]
          change Except.ok (Int.land _ 1) = _
          rw [land_one]
          rfl
  rw [key _ rfl]
  constructor
  · intro x
    split
    · rename_i h
      constructor
      · intro hx; cases hx; exact ⟨h, rfl⟩
      · rintro ⟨-, rfl⟩; rfl
    · rename_i h
      constructor
      · intro hx; cases hx
      · rintro ⟨hh, -⟩; exact absurd hh h
  · intro e he
    split at he
    · cases he
    · cases he; rfl

/-- C199, the index conversions for a given width: they are inverse to each other for every width, and
those of a field are the ones for its own width; position `p` from the left of a field of width `w`
has the weight that the order says. -/
theorem C199_widths (b : BitField) (i : Int) (w : Option Int) :
    b.vindexFor (b.rindexFor i w) w = i ∧ b.rindexFor (b.vindexFor i w) w = i ∧
    b.rindexFor i none = b.rindex i ∧ b.vindexFor i none = b.vindex i ∧
    ∀ n : Nat, w = some (n : Int) →
      b.rindexFor i w = if b.order = .msbLeft then (n : Int) - 1 - weightExp b.numbering.code n i
        else weightExp b.numbering.code n i := by
  obtain ⟨W, v, n, o⟩ := b
  refine ⟨?_, ?_, ?_, ?_, ?_⟩
  any_goals (cases n <;> cases o <;>
    simp only [BitField.rindexFor, BitField.vindexFor, BitField.rindex, BitField.vindex,
      Option.getD_none] <;> omega)
  rintro m rfl
  cases n <;> cases o <;>
    simp only [BitField.rindexFor, weightExp, Numbering.code, Option.getD_some, if_true, reduceCtorEq,
      if_false] <;> omega

/-- C199 on an MSB_1 field: bit 2 of 0b101 is its third one from the right; a value of 16 is taken for
a field of 4 bits. -/
example : let b : BitField := ⟨8, 0, .msb1, .msbLeft⟩
    b.getBitValue 2 5 none = .ok 1 ∧ b.getBitValue 1 5 (some 3) = .ok 0 ∧
    b.getBitValue 4 16 (some 4) = .ok 1 ∧ b.getBitValue 0 17 (some 4) = .error .valueError ∧
    b.getBitValue (-1) 5 none = .error .valueError ∧ b.rindexFor 3 (some 4) = 2 := by decide

end H800
