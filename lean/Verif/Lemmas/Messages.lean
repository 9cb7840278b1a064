import Verif.Model.Messages
import Verif.Spec.Messages
import Verif.Lemmas.BitField
import Verif.Lemmas.Registers
import Verif.Lemmas.Gen

/-!
Texts of exceptions: helper lemmas.
-/

namespace H800
open Spec

theorem pyStr_signed (n : Int) : Signed (pyStr n) n := by
  unfold Signed pyStr
  by_cases h : n < 0
  · rw [if_pos h]
    exact Or.inr ⟨h, _, rfl, numeral_decimal _⟩
  · rw [if_neg h]
    refine Or.inl ⟨by omega, ?_⟩
    have := numeral_decimal n.natAbs
    rwa [show n.toNat = n.natAbs by omega]

theorem pyStr_shortest (n : Int) : Shortest n (pyStr n) :=
  ⟨pyStr_signed n, by omega, fun _ h _ => pyStr_length h⟩

namespace BitField

theorem hasBit_iff (b : BitField) (i : Int) : HasBit b i ↔ 0 ≤ b.wt i ∧ b.wt i < b.width := Iff.rfl

instance (b : BitField) (i : Int) : Decidable (HasBit b i) := by unfold HasBit; infer_instance

theorem checkIndexText_eq (b : BitField) (i : Int) : b.checkIndexText i =
    if HasBit b i then none
    else some (py "Invalid index for " ++ pyStr b.width ++ py "-bit bit-field!") := by
  have h := b.rindex_eq i
  simp only [checkIndexText]
  by_cases hc : HasBit b i
  · rw [if_neg, if_pos hc]
    rw [hasBit_iff] at hc
    cases ho : b.order <;> simp only [ho] at h <;> omega
  · rw [if_pos, if_neg hc]
    rw [hasBit_iff] at hc
    cases ho : b.order <;> simp only [ho] at h <;> omega

theorem checkOrderText_eq (b : BitField) (s e : Int) : b.checkOrderText s e =
    if b.Ordered s e then none else some RANGE_TEXT := by
  obtain ⟨W, v, n, o⟩ := b
  cases n <;> cases o <;>
    simp only [checkOrderText, Ordered, wt, weightExp, Numbering.code, reduceCtorEq, or_false,
      or_true, or_self, if_true, if_false] <;>
    split <;> split <;> first | rfl | omega

theorem ordered_iff (b : BitField) (s e : Int) : b.Ordered s e ↔ ¬ RightOf b s e := by
  unfold Ordered RightOf
  change _ ↔ ¬ (match b.order with
    | .msbLeft => b.wt s < b.wt e
    | .lsbLeft => b.wt e < b.wt s)
  cases b.order <;> simp only <;> omega

/-- A range is refused because of one of its bounds, or of their order. -/
theorem checkRangeText_eq (b : BitField) (s e : Int) : b.checkRangeText (some s) (some e) =
    if b.RangeOk s e then none
    else if HasBit b s ∧ HasBit b e then some RANGE_TEXT
    else some (py "Invalid index for " ++ pyStr b.width ++ py "-bit bit-field!") := by
  simp only [checkRangeText, checkIndexText_eq, checkOrderText_eq, RangeOk, ← hasBit_iff]
  by_cases h1 : HasBit b s
  · by_cases h2 : HasBit b e
    · by_cases h3 : b.Ordered s e <;> simp [h1, h2, h3]
    · simp [h1, h2]
  · simp [h1]

theorem checkValueText_eq {b : BitField} {x : Int} {n : Nat} (h : n ≤ b.width) :
    b.checkValueText x (some n) = if x ≤ 2 ^ n then none
      else some (py "Value is greater than allowed for " ++ pyStr n ++ py "-bit field!") := by
  unfold checkValueText maxval
  have : b.width < 2 ^ b.width := Nat.lt_two_pow_self
  have : (b.width : Int) < 2 ^ b.width := by exact_mod_cast this
  have h1 : ¬ (((n : Int)) < 0 ∨ (n : Int) > 2 ^ b.width - 1) := by omega
  have h2 : pow2 ((some (n : Int)).getD b.width) = 2 ^ n := rfl
  by_cases hx : x ≤ 2 ^ n
  · rw [if_pos hx]
    exact (if_neg h1).trans (if_neg (show ¬ x > pow2 ((some (n : Int)).getD b.width) by rw [h2]; omega))
  · rw [if_neg hx]
    exact (if_neg h1).trans (if_pos (show x > pow2 ((some (n : Int)).getD b.width) by rw [h2]; omega))

theorem setValueText_eq (b : BitField) (x : Int) : b.setValueText x = if x ≤ 2 ^ b.width then none
    else some (py "Value is greater than allowed for " ++ pyStr b.width ++ py "-bit field!") :=
  checkValueText_eq (n := b.width) (Nat.le_refl _)

theorem checkValue_none (b : BitField) (x : Int) :
    b.checkValue x none = if x ≤ 2 ^ b.width then .ok () else .error .valueError := by
  unfold checkValue maxval
  have : b.width < 2 ^ b.width := Nat.lt_two_pow_self
  have : (b.width : Int) < 2 ^ b.width := by exact_mod_cast this
  have h1 : ¬ (((b.width : Int)) < 0 ∨ (b.width : Int) > 2 ^ b.width - 1) := by omega
  have h2 : pow2 ((none : Option Int).getD b.width) = 2 ^ b.width := rfl
  by_cases hx : x ≤ 2 ^ b.width
  · rw [if_pos hx]
    exact (if_neg h1).trans
      (if_neg (show ¬ x > pow2 ((none : Option Int).getD b.width) by rw [h2]; omega))
  · rw [if_neg hx]
    exact (if_neg h1).trans
      (if_pos (show x > pow2 ((none : Option Int).getD b.width) by rw [h2]; omega))

theorem span_count {b : BitField} {s e : Int} {lo n : Nat} (h : b.Span s e lo n) :
    n = (b.wt s - b.wt e).natAbs + 1 := by
  obtain ⟨h1, h2, h3⟩ := h
  cases ho : b.order <;> simp only [ho] at h3 <;> omega

theorem setSliceText_span {b : BitField} {s e : Int} {lo n : Nat} (h : b.Span s e lo n) (x : Int) :
    b.setitemText (.slice (some s) (some e)) x = if x ≤ 2 ^ n then none
      else some (py "Value is greater than allowed for " ++ pyStr n ++ py "-bit field!") := by
  simp only [setitemText]
  rw [checkRangeText_eq, if_pos (span_rangeOk h), span_width h,
    checkValueText_eq (by have := h.2.1; omega)]
  rfl

theorem setSliceText_bad {b : BitField} {s e : Int} (h : ¬ b.RangeOk s e) (x : Int) :
    b.setitemText (.slice (some s) (some e)) x = if HasBit b s ∧ HasBit b e then some RANGE_TEXT
      else some (py "Invalid index for " ++ pyStr b.width ++ py "-bit bit-field!") := by
  simp only [setitemText]
  rw [checkRangeText_eq, if_neg h]
  split <;> rfl

theorem setIndexText_eq (b : BitField) (i x : Int) : b.setitemText (.idx i) x =
    if HasBit b i then (if x ≤ 2 then none
      else some (py "Value is greater than allowed for 1-bit field!"))
    else some (py "Invalid index for " ++ pyStr b.width ++ py "-bit bit-field!") := by
  simp only [setitemText, checkIndexText_eq]
  by_cases h : HasBit b i
  · rw [if_pos h, if_pos h, Option.none_or]
    have := checkValueText_eq (b := b) (x := x) (n := 1) (by rw [hasBit_iff] at h; omega)
    simp only [Nat.cast_one, pow_one] at this
    rw [this]
    rfl
  · rw [if_neg h, if_neg h]; rfl

/-- Exactly one of: the range is good, and what it spans; or it is not. -/
theorem range_cases (b : BitField) (s e : Int) : (∃ lo n, b.Span s e lo n) ∨ ¬ b.RangeOk s e := by
  rw [← rangeOk_iff]; exact Classical.em _

end BitField

/-- The end of a call, and the text that goes with it. -/
theorem bf_raise (b : BitField) (call : BfCall) :
    (call.text b).isSome ↔ call.ends b = .error .valueError := by
  have hI : ∀ i, (b.checkIndexText i).isSome ↔ b.checkIndex (some i) = .error .valueError := by
    intro i
    rw [BitField.checkIndexText_eq, BitField.checkIndex_some]
    by_cases h : HasBit b i
    · rw [if_pos h, if_pos ((b.hasBit_iff i).1 h)]; simp
    · rw [if_neg h, if_neg (fun g => h ((b.hasBit_iff i).2 g))]; simp
  have hput : ∀ i x, (b.setitemText (.idx i) x).isSome ↔
      (b.setitem (.idx i) x).2 = .error .valueError := by
    intro i x
    rw [BitField.setIndexText_eq]
    have hn := b.newIndex_eq i x
    by_cases h : HasBit b i
    · rw [if_pos ((b.hasBit_iff i).1 h)] at hn
      rw [if_pos h]
      by_cases hx : x ≤ 2
      · rw [if_pos hx] at hn ⊢
        rw [BitField.setitem_idx_ok hn]; simp
      · rw [if_neg hx] at hn ⊢
        rw [BitField.setitem_idx_error hn]; simp
    · rw [if_neg (fun g => h ((b.hasBit_iff i).2 g))] at hn
      rw [if_neg h, BitField.setitem_idx_error hn]; simp
  have hR : ∀ s e, (b.checkRangeText (some s) (some e)).isSome ↔ ¬ b.RangeOk s e := by
    intro s e
    rw [BitField.checkRangeText_eq]
    by_cases h : b.RangeOk s e
    · simp [h]
    · rw [if_neg h]; split <;> simp [h]
  have hT1 : ∀ e, b.checkRange none e = .error .typeError := fun e => rfl
  have hT2 : ∀ s, b.checkRange (some s) none =
      if HasBit b s then .error .typeError else .error .valueError := by
    intro s
    unfold BitField.checkRange
    rw [BitField.checkIndex_some]
    by_cases h : HasBit b s
    · rw [if_pos ((b.hasBit_iff s).1 h), if_pos h]; rfl
    · rw [if_neg (fun g => h ((b.hasBit_iff s).2 g)), if_neg h]; rfl
  have hset : ∀ (i : Option Int) (x v : Int), (b.fillText x i).isSome ↔
      (match i with
        | none => ({ b with value := v }, .ok ())
        | some i =>
          if i = 0 then ({ b with value := v }, .ok ())
          else match b.checkIndex (some i) with
            | .ok _ => b.setitem (.idx i) x
            | .error e => (b, .error e) : BitField × Py Unit).2 = .error .valueError := by
    intro i x v
    match i with
    | none => simp [BitField.fillText]
    | some i =>
      simp only [BitField.fillText]
      by_cases h0 : i = 0
      · simp [h0]
      · rw [if_neg h0, if_neg h0]
        have := hI i
        cases hc : b.checkIndex (some i) with
        | ok u =>
          rw [hc] at this
          have hno : b.checkIndexText i = none := by
            cases ht : b.checkIndexText i with
            | none => rfl
            | some t => rw [ht] at this; simp at this
          rw [hno, Option.none_or]
          exact hput i x
        | error er =>
          rw [BitField.checkIndex_some] at hc
          by_cases hb : 0 ≤ b.wt i ∧ b.wt i < b.width
          · rw [if_pos hb] at hc; cases hc
          · rw [if_neg hb] at hc; cases hc
            rw [BitField.checkIndexText_eq, if_neg (fun g => hb ((b.hasBit_iff i).1 g))]
            simp
  cases call with
  | get k =>
    match k with
    | .idx i =>
      simp only [BfCall.text, BfCall.ends, BitField.getitemText, BitField.getitem]
      rw [BitField.getIndex_eq, BitField.checkIndexText_eq]
      by_cases h : HasBit b i
      · rw [if_pos h, if_pos ((b.hasBit_iff i).1 h)]; simp [Except.map]
      · rw [if_neg h, if_neg (fun g => h ((b.hasBit_iff i).2 g))]; simp [Except.map]
    | .slice none e =>
      simp [BfCall.text, BfCall.ends, BitField.getitemText, BitField.getitem, BitField.checkRangeText,
        BitField.getSlice, hT1, Except.map]
    | .slice (some s) none =>
      simp only [BfCall.text, BfCall.ends, BitField.getitemText, BitField.getitem,
        BitField.checkRangeText, BitField.getSlice, hT2, BitField.checkIndexText_eq]
      by_cases h : HasBit b s <;> simp [h, Except.map]
    | .slice (some s) (some e) =>
      simp only [BfCall.text, BfCall.ends, BitField.getitemText, BitField.getitem]
      rw [hR]
      rcases b.range_cases s e with ⟨lo, n, h⟩ | h
      · rw [BitField.getSlice_span h]; simp [Except.map, BitField.span_rangeOk h]
      · simp only [BitField.getSlice, BitField.checkRange_some, if_neg h]
        simp [Except.map, h]
  | put k x =>
    match k with
    | .idx i => exact hput i x
    | .slice none e =>
      have : b.newSlice none e x = .error .typeError := rfl
      simp only [BfCall.text, BfCall.ends]
      rw [BitField.setitem_slice_error this]
      simp [BitField.setitemText, BitField.checkRangeText]
    | .slice (some s) none =>
      simp only [BfCall.text, BfCall.ends, BitField.setitemText, BitField.checkRangeText,
        BitField.checkIndexText_eq]
      have hn : b.newSlice (some s) none x =
          if HasBit b s then .error .typeError else .error .valueError := by
        unfold BitField.newSlice
        rw [hT2]
        split <;> rfl
      by_cases h : HasBit b s
      · rw [if_pos h] at hn ⊢
        rw [BitField.setitem_slice_error hn]; simp
      · rw [if_neg h] at hn ⊢
        rw [BitField.setitem_slice_error hn]; simp
    | .slice (some s) (some e) =>
      simp only [BfCall.text, BfCall.ends]
      rcases b.range_cases s e with ⟨lo, n, h⟩ | h
      · rw [BitField.setSliceText_span h]
        have hn := BitField.newSlice_span h x
        by_cases hx : x ≤ 2 ^ n
        · rw [if_pos hx] at hn ⊢
          rw [BitField.setitem_slice_ok hn]; simp
        · rw [if_neg hx] at hn ⊢
          rw [BitField.setitem_slice_error hn]; simp
      · rw [BitField.setSliceText_bad h, BitField.setitem_slice_error (newSlice_bad h x)]
        split <;> simp
  | setValue x =>
    simp only [BfCall.text, BfCall.ends, BitField.setValueText_eq, BitField.setValue,
      BitField.checkValue_none]
    by_cases h : x ≤ 2 ^ b.width <;> simp [h]
  | set i => exact hset i 1 b.maxval
  | clear i => exact hset i 0 0
  | isBit i x =>
    simp only [BfCall.text, BfCall.ends, BitField.isBitText, BitField.isBit]
    rw [BitField.getIndex_eq, BitField.checkIndexText_eq, BitField.checkIndex_some]
    by_cases h : HasBit b i
    · rw [if_pos h, if_pos ((b.hasBit_iff i).1 h), if_pos ((b.hasBit_iff i).1 h)]
      simp [Except.map]
    · rw [if_neg h, if_neg (fun g => h ((b.hasBit_iff i).2 g))]; simp [Except.map]
  | isRange s e x =>
    match s, e with
    | none, e =>
      simp [BfCall.text, BfCall.ends, BitField.isRangeText, BitField.checkRangeText,
        BitField.isRange, hT1, Except.map]
    | some s, none =>
      simp only [BfCall.text, BfCall.ends, BitField.isRangeText, BitField.checkRangeText,
        BitField.isRange, hT2, BitField.checkIndexText_eq]
      by_cases h : HasBit b s <;> simp [h, Except.map]
    | some s, some e =>
      simp only [BfCall.text, BfCall.ends, BitField.isRangeText, BitField.isRange]
      rw [BitField.checkRange_some]
      rcases b.range_cases s e with ⟨lo, n, h⟩ | h
      · rw [BitField.checkRangeText_eq, if_pos (BitField.span_rangeOk h),
          if_pos (BitField.span_rangeOk h), BitField.getSlice_span h, BitField.bitmask_span h]
        by_cases hx : x = 0 ∨ x = 1
        · rw [if_neg (not_not_intro hx), if_neg (not_not_intro hx)]
          by_cases h0 : x = 0 <;> simp [h0, Except.map]
        · rw [if_pos hx, if_pos hx]
          simp [Except.map]
      · rw [if_neg h]
        have := (hR s e).2 h
        cases hc : b.checkRangeText (some s) (some e) with
        | none => rw [hc] at this; simp at this
        | some t => simp [Except.map]

end H800
