import Verif.Spec.NoBits
import Verif.Props.Messages

/-!
Property C201: a bit-field has at least one bit and at most 64.
-/

namespace H800

open Spec

/-- C201 as stated: a bit-field that is made has from 1 to 64 bits. -/
def C201_statement : Prop := ∀ value width numbering order b,
  BitField.make value width numbering order = .ok b → 1 ≤ anyWidth b ∧ anyWidth b ≤ 64

/-- C201 is false: a field of no bits can be made, and if its value is negative one of less than none. -/
theorem C201_refuted : ¬ C201_statement := by
  intro h
  have := h 0 0 0 0 (.inl ⟨0, 0, .lsb0, .msbLeft⟩) (by decide +kernel)
  exact absurd this.1 (by decide)

theorem negMax_bounds {w : Int} (hw : w < 0) : -1 ≤ NoBits.maxval w ∧ NoBits.maxval w < 0 := by
  rw [NoBits.maxval]
  split_ifs
  · norm_num
  · have h2 : (1 : Rat) < 2 ^ w.natAbs := one_lt_pow₀ (by norm_num) (by omega)
    constructor
    · have : (0 : Rat) ≤ 1 / 2 ^ w.natAbs := by positivity
      linarith
    · have : (1 : Rat) / 2 ^ w.natAbs < 1 := by rw [div_lt_one (by linarith)]; exact h2
      linarith

theorem over_negMax {w v : Int} (hw : w < 0) : (v : Rat) > NoBits.maxval w ↔ 0 ≤ v := by
  obtain ⟨h1, h2⟩ := negMax_bounds hw
  constructor
  · intro h
    by_contra h0
    have : (v : Rat) ≤ -1 := by exact_mod_cast (by omega : v ≤ -1)
    linarith
  · intro h
    have : (0 : Rat) ≤ v := by exact_mod_cast h
    linarith

/-- C201: with a width that is not negative, the field is the one of the other properties. -/
theorem C201_agrees (value : Int) (width : Nat) (numbering order : Int) :
    BitField.make value width numbering order =
      (BitField.init value width numbering order).map .inl := by
  rw [BitField.make, if_neg (by omega), Int.toNat_natCast]
  cases BitField.init value width numbering order <;> rfl

theorem numberingOf_ok (n : Int) :
    (∃ x, BitField.numberingOf n = .ok x) ↔ ∃ x : Numbering, n = x.code := by
  constructor
  · rintro ⟨x, h⟩
    unfold BitField.numberingOf at h
    split at h
    · exact ⟨.lsb0, rfl⟩
    · exact ⟨.lsb1, rfl⟩
    · exact ⟨.msb0, rfl⟩
    · exact ⟨.msb1, rfl⟩
    · cases h
  · rintro ⟨x, rfl⟩
    exact ⟨x, by cases x <;> rfl⟩

theorem orderOf_ok (n : Int) : (∃ x, BitField.orderOf n = .ok x) ↔ n = 0 ∨ n = 1 := by
  constructor
  · rintro ⟨x, h⟩
    unfold BitField.orderOf at h
    split at h
    · exact .inl rfl
    · exact .inr rfl
    · cases h
  · rintro (rfl | rfl)
    · exact ⟨.msbLeft, rfl⟩
    · exact ⟨.lsbLeft, rfl⟩

/-- C201: a field that is not made is refused with a ValueError. -/
theorem C201_error (value width numbering order : Int) (e : PyErr)
    (h : BitField.make value width numbering order = .error e) : e = .valueError := by
  have hn : ∀ e, BitField.numberingOf numbering = .error e → e = .valueError := by
    intro e h
    unfold BitField.numberingOf at h
    split at h <;> cases h
    rfl
  have ho : ∀ e, BitField.orderOf order = .error e → e = .valueError := by
    intro e h
    unfold BitField.orderOf at h
    split at h <;> cases h
    rfl
  unfold BitField.make at h
  split at h
  · split at h
    · cases h; rfl
    · split at h
      · next h' => cases h; exact hn _ h'
      · split at h
        · next h' => cases h; exact ho _ h'
        · cases h
  · split at h
    · next e' h' =>
      cases h
      rw [BitField.init] at h'
      split at h'
      · cases h'; rfl
      · simp only [py_pure] at h'
        split at h'
        · cases h'; rfl
        · cases hn' : BitField.numberingOf numbering with
          | error e =>
            rw [hn'] at h'
            cases h'
            exact hn _ hn'
          | ok n =>
            cases ho' : BitField.orderOf order with
            | error e =>
              rw [hn', ho'] at h'
              cases h'
              exact ho _ ho'
            | ok o => rw [hn', ho'] at h'; cases h'
    · cases h

/-- C201, what holds: which fields are made. The width is 64 at most and may be too small only if the value
is too: 0 for no bits, a negative number for a negative width. -/
theorem C201_made_partial (value width numbering order : Int) :
    ((∃ b, BitField.make value width numbering order = .ok b) ↔
      width ≤ 64 ∧ (∃ n : Numbering, numbering = n.code) ∧ (order = 0 ∨ order = 1) ∧
      (0 ≤ width → value < 2 ^ width.toNat) ∧ (width < 0 → value < 0)) ∧
    ∀ b, BitField.make value width numbering order = .ok b → anyWidth b = width := by
  rw [← numberingOf_ok, ← orderOf_ok]
  by_cases hw : width < 0
  · rw [BitField.make, if_pos hw]
    by_cases hv : 0 ≤ value
    · rw [if_pos ((over_negMax hw).2 hv)]
      refine ⟨⟨fun ⟨b, h⟩ => (by cases h), fun ⟨_, _, _, _, h⟩ => absurd (h hw) (by omega)⟩, ?_⟩
      intro b h; cases h
    · rw [if_neg (fun h => hv ((over_negMax hw).1 h))]
      cases hn : BitField.numberingOf numbering with
      | error e => simp
      | ok n =>
        cases ho : BitField.orderOf order with
        | error e => simp
        | ok o =>
          refine ⟨⟨fun _ => ⟨by omega, ⟨_, rfl⟩, ⟨_, rfl⟩, fun h => absurd hw (by omega), fun _ => by omega⟩,
            fun _ => ⟨_, rfl⟩⟩, ?_⟩
          intro b h
          cases h
          rfl
  · obtain ⟨w, rfl⟩ := Int.eq_ofNat_of_zero_le (by omega : 0 ≤ width)
    rw [C201_agrees, BitField.init, BitField.MAX_WIDTH]
    by_cases h64 : w > 64
    · simp only [h64]
      refine ⟨⟨fun ⟨b, h⟩ => (by cases h), fun h => absurd h.1 (by omega)⟩, ?_⟩
      intro b h; cases h
    · simp only [h64]
      by_cases hv : value > 2 ^ w - 1
      · simp only [hv]
        refine ⟨⟨fun ⟨b, h⟩ => (by cases h), fun h => ?_⟩, ?_⟩
        · have := h.2.2.2.1 (by omega)
          rw [Int.toNat_natCast] at this
          omega
        · intro b h; cases h
      · simp only [hv]
        cases hn : BitField.numberingOf numbering with
        | error e =>
          refine ⟨⟨fun ⟨b, h⟩ => (by cases h), fun ⟨_, ⟨x, h⟩, _⟩ => by cases h⟩, ?_⟩
          intro b h; cases h
        | ok n =>
          cases ho : BitField.orderOf order with
          | error e =>
            refine ⟨⟨fun ⟨b, h⟩ => (by cases h), fun ⟨_, _, ⟨x, h⟩, _⟩ => by cases h⟩, ?_⟩
            intro b h; cases h
          | ok o =>
            refine ⟨⟨fun _ => ⟨by omega, ⟨_, rfl⟩, ⟨_, rfl⟩, fun _ => ?_, fun h => absurd h (by omega)⟩,
              fun _ => ⟨_, rfl⟩⟩, ?_⟩
            · rw [Int.toNat_natCast]; omega
            · intro b h
              cases h
              rfl

section
variable {b : NoBits} (hb : b.width < 0)
include hb

theorem noBits_index (i : Int) : b.checkIndex (some i) = .error .valueError ∧
    b.checkIndexText i = some (py "Invalid index for " ++ pyStr b.width ++ py "-bit bit-field!") := by
  have h : b.rindex i < 0 ∨ b.rindex i ≥ b.width := by omega
  rw [NoBits.checkIndex, NoBits.checkIndexText, if_pos h, if_pos h]
  exact ⟨rfl, rfl⟩

theorem noBits_value (x : Int) : b.setValue x = (b, .error .valueError) ∧
    b.checkValueText = some (py "Illegal bit-field width " ++ pyStr b.width ++ py "!") := by
  rw [NoBits.setValue, NoBits.checkValue, NoBits.checkValueText, if_pos (.inl hb), if_pos (.inl hb)]
  exact ⟨rfl, rfl⟩

theorem noBits_range (s e : Int) : b.checkRange (some s) (some e) = .error .valueError ∧
    b.checkRangeText (some s) (some e) =
      some (py "Invalid index for " ++ pyStr b.width ++ py "-bit bit-field!") := by
  rw [NoBits.checkRange, NoBits.checkRangeText, (noBits_index hb s).1, (noBits_index hb s).2]
  exact ⟨rfl, rfl⟩

/-- C201: a field of negative width refuses every call that is about bits or a new value, with a text that
gives its width, and keeps its value. -/
theorem C201_refused (call : BfCall) (hf : ¬ FillsAll call) (hc : Bounded call) :
    b.call call = (b, .error .valueError) ∧ ∃ w, Shortest b.width w ∧
      ((∃ x, call = .setValue x) →
        b.callText call = some (py "Illegal bit-field width " ++ w ++ py "!")) ∧
      ((¬ ∃ x, call = .setValue x) →
        b.callText call = some (py "Invalid index for " ++ w ++ py "-bit bit-field!")) := by
  have key : ∀ i : Option Int, i ≠ none → i ≠ some 0 → ∃ j, i = some j ∧ j ≠ 0 := by
    intro i h h'
    cases i with
    | none => exact absurd rfl h
    | some j => exact ⟨j, rfl, fun e => h' (by rw [e])⟩
  refine ⟨?_, _, pyStr_shortest b.width, ?_, ?_⟩
  · cases call with
    | get k =>
      cases k with
      | idx i => simp only [NoBits.call, NoBits.checkKey, (noBits_index hb i).1]
      | slice s e =>
        obtain ⟨s, rfl⟩ := Option.ne_none_iff_exists'.1 hc.1
        obtain ⟨e, rfl⟩ := Option.ne_none_iff_exists'.1 hc.2
        simp only [NoBits.call, NoBits.checkKey, (noBits_range hb s e).1]
    | put k x =>
      cases k with
      | idx i => simp only [NoBits.call, NoBits.checkKey, (noBits_index hb i).1]
      | slice s e =>
        obtain ⟨s, rfl⟩ := Option.ne_none_iff_exists'.1 hc.1
        obtain ⟨e, rfl⟩ := Option.ne_none_iff_exists'.1 hc.2
        simp only [NoBits.call, NoBits.checkKey, (noBits_range hb s e).1]
    | setValue x => exact (noBits_value hb x).1
    | set i =>
      obtain ⟨j, rfl, hj⟩ := key i (fun h => hf (.inl h)) (fun h => hf (.inr h))
      simp only [NoBits.call, NoBits.set, hj, if_false, (noBits_index hb j).1]
    | clear i =>
      obtain ⟨j, rfl, hj⟩ := key i (fun h => hf (.inl h)) (fun h => hf (.inr h))
      simp only [NoBits.call, NoBits.clear, hj, if_false, (noBits_index hb j).1]
    | isBit i x => simp only [NoBits.call, (noBits_index hb i).1]
    | isRange s e x =>
      obtain ⟨s, rfl⟩ := Option.ne_none_iff_exists'.1 hc.1
      obtain ⟨e, rfl⟩ := Option.ne_none_iff_exists'.1 hc.2
      simp only [NoBits.call, (noBits_range hb s e).1]
  · rintro ⟨x, rfl⟩
    exact (noBits_value hb x).2
  · intro hx
    cases call with
    | get k =>
      cases k with
      | idx i => exact (noBits_index hb i).2
      | slice s e =>
        obtain ⟨s, rfl⟩ := Option.ne_none_iff_exists'.1 hc.1
        obtain ⟨e, rfl⟩ := Option.ne_none_iff_exists'.1 hc.2
        exact (noBits_range hb s e).2
    | put k x =>
      cases k with
      | idx i => exact (noBits_index hb i).2
      | slice s e =>
        obtain ⟨s, rfl⟩ := Option.ne_none_iff_exists'.1 hc.1
        obtain ⟨e, rfl⟩ := Option.ne_none_iff_exists'.1 hc.2
        exact (noBits_range hb s e).2
    | setValue x => exact absurd ⟨x, rfl⟩ hx
    | set i =>
      obtain ⟨j, rfl, hj⟩ := key i (fun h => hf (.inl h)) (fun h => hf (.inr h))
      simp only [NoBits.callText, hj, if_false, (noBits_index hb j).2]
    | clear i =>
      obtain ⟨j, rfl, hj⟩ := key i (fun h => hf (.inl h)) (fun h => hf (.inr h))
      simp only [NoBits.callText, hj, if_false, (noBits_index hb j).2]
    | isBit i x =>
      exact (noBits_index hb i).2
    | isRange s e x =>
      obtain ⟨s, rfl⟩ := Option.ne_none_iff_exists'.1 hc.1
      obtain ⟨e, rfl⟩ := Option.ne_none_iff_exists'.1 hc.2
      exact (noBits_range hb s e).2

end

theorem noBits_unfilled {b : NoBits} (hb : b.width < 0) {call : BfCall} (hf : ¬ FillsAll call) :
    (b.call call).1 = b := by
  cases call with
  | get k => rfl
  | put k x => rfl
  | setValue x => rw [NoBits.call, (noBits_value hb x).1]
  | set i =>
    cases i with
    | none => exact absurd (.inl rfl) hf
    | some j =>
      have : j ≠ 0 := fun e => hf (.inr (by rw [e]))
      simp only [NoBits.call, NoBits.set, this, if_false]
  | clear i =>
    cases i with
    | none => exact absurd (.inl rfl) hf
    | some j =>
      have : j ≠ 0 := fun e => hf (.inr (by rw [e]))
      simp only [NoBits.call, NoBits.clear, this, if_false]
  | isBit i x => rfl
  | isRange s e x => rfl

theorem noBits_filled (b : NoBits) {call : BfCall} (hf : FillsAll call) :
    (SetsAll call → b.call call = ({ b with value := none }, .ok ())) ∧
    (¬ SetsAll call → b.call call = ({ b with value := some 0 }, .ok ())) := by
  cases call with
  | set i => rcases hf with rfl | rfl <;> simp [NoBits.call, NoBits.set, SetsAll]
  | clear i => rcases hf with rfl | rfl <;> simp [NoBits.call, NoBits.clear, SetsAll]
  | get k => exact absurd hf id
  | put k x => exact absurd hf id
  | setValue x => exact absurd hf id
  | isBit i x => exact absurd hf id
  | isRange s e x => exact absurd hf id

theorem noBits_width (b : NoBits) (call : BfCall) : (b.call call).1.width = b.width := by
  cases call with
  | setValue x => simp only [NoBits.call, NoBits.setValue]; split <;> rfl
  | set i =>
    cases i with
    | none => rfl
    | some j => simp only [NoBits.call, NoBits.set]; split_ifs <;> rfl
  | clear i =>
    cases i with
    | none => rfl
    | some j => simp only [NoBits.call, NoBits.clear]; split_ifs <;> rfl
  | get k => rfl
  | put k x => rfl
  | isBit i x => rfl
  | isRange s e x => rfl

theorem after_width (b : NoBits) (calls : List BfCall) : (b.after calls).width = b.width := by
  induction calls generalizing b with
  | nil => rfl
  | cons c cs ih => exact (ih _).trans (noBits_width b c)

theorem after_unfilled {b : NoBits} (hb : b.width < 0) {calls : List BfCall}
    (hc : ∀ c ∈ calls, ¬ FillsAll c) : b.after calls = b := by
  induction calls with
  | nil => rfl
  | cons c cs ih =>
    have := noBits_unfilled hb (hc c (by simp))
    rw [NoBits.after, List.foldl_cons, this]
    exact ih fun c h => hc c (by simp [h])

theorem made_noBits {value width numbering order : Int} {b : NoBits}
    (hm : BitField.make value width numbering order = .ok (.inr b)) :
    width < 0 ∧ b.width = width ∧ b.value = some value := by
  rw [BitField.make] at hm
  by_cases h : width < 0
  · rw [if_pos h] at hm
    refine ⟨h, ?_⟩
    split_ifs at hm
    split at hm
    · cases hm
    · split at hm
      · cases hm
      · cases hm
        exact ⟨rfl, rfl⟩
  · rw [if_neg h] at hm
    split at hm <;> cases hm

theorem after_filled {b : NoBits} (hb : b.width < 0) (pre : List BfCall) (c : BfCall) {post : List BfCall}
    (hp : ∀ d ∈ post, ¬ FillsAll d) : b.after (pre ++ c :: post) = ((b.after pre).call c).1 := by
  have : b.after (pre ++ c :: post) = ((b.after pre).call c).1.after post := by
    rw [NoBits.after, List.foldl_append, List.foldl_cons]; rfl
  rw [this]
  exact after_unfilled (by rw [noBits_width, after_width]; exact hb) hp

/-- C201: the value of a field of negative width is changed only by setting or clearing the whole field:
it is the one given to the constructor until then; after clearing it is 0, and after setting it is 0 or
-1, the integer part of a fraction. -/
theorem C201_value {value width numbering order : Int} {b : NoBits}
    (hm : BitField.make value width numbering order = .ok (.inr b)) (calls : List BfCall) :
    ((∀ c ∈ calls, ¬ FillsAll c) → (b.after calls).getValue = value) ∧
    ∀ pre c post, calls = pre ++ c :: post → FillsAll c → (∀ d ∈ post, ¬ FillsAll d) →
      (¬ SetsAll c → (b.after calls).getValue = 0) ∧
      (SetsAll c → (b.after calls).getValue =
        if 0 ≤ NoBits.maxval width then ⌊NoBits.maxval width⌋ else ⌈NoBits.maxval width⌉) := by
  obtain ⟨hw, e1, e2⟩ := made_noBits hm
  have hb : b.width < 0 := by omega
  refine ⟨fun h => by rw [after_unfilled hb h, NoBits.getValue, e2]; rfl, ?_⟩
  rintro pre c post rfl hc hp
  have hwid : (b.after pre).width = width := (after_width b pre).trans e1
  rw [after_filled hb pre c hp]
  refine ⟨fun h => by rw [(noBits_filled _ hc).2 h]; rfl, fun h => ?_⟩
  rw [(noBits_filled _ hc).1 h, if_neg (not_le.2 (negMax_bounds hw).2), NoBits.getValue, NoBits.maxval]
  simp only [hwid, Option.getD_none]
  by_cases h53 : width < -53
  · rw [if_pos h53, if_pos h53]; norm_num
  · rw [if_neg h53, if_neg h53, eq_comm, Int.ceil_eq_iff]
    have h2 : (1 : Rat) < 2 ^ width.natAbs := one_lt_pow₀ (by norm_num) (by omega)
    have h3 : (0 : Rat) < 1 / 2 ^ width.natAbs := by positivity
    have h4 : (1 : Rat) / 2 ^ width.natAbs < 1 := by rw [div_lt_one (by linarith)]; exact h2
    constructor
    · push_cast; linarith
    · push_cast; linarith

/-- C201: `int` of a field of negative width is the value given, or 0 after clearing; after setting it is a
TypeError, as the fraction is no int. -/
theorem C201_int {value width numbering order : Int} {b : NoBits}
    (hm : BitField.make value width numbering order = .ok (.inr b)) (calls : List BfCall) :
    ((∀ c ∈ calls, ¬ FillsAll c) → (b.after calls).toInt = .ok value) ∧
    ∀ pre c post, calls = pre ++ c :: post → FillsAll c → (∀ d ∈ post, ¬ FillsAll d) →
      (¬ SetsAll c → (b.after calls).toInt = .ok 0) ∧
      (SetsAll c → (b.after calls).toInt = .error .typeError) := by
  obtain ⟨hw, e1, e2⟩ := made_noBits hm
  have hb : b.width < 0 := by omega
  refine ⟨fun h => by rw [after_unfilled hb h, NoBits.toInt, e2], ?_⟩
  rintro pre c post rfl hc hp
  rw [after_filled hb pre c hp]
  exact ⟨fun h => by rw [(noBits_filled _ hc).2 h]; rfl, fun h => by rw [(noBits_filled _ hc).1 h]; rfl⟩

/-- C201: if a bound is missing, a field of negative width keeps its value too: without a first bound the
call ends with a TypeError, and without a last one with the ValueError of the first. -/
theorem C201_missing {b : NoBits} (hb : b.width < 0) (s e : Option Int) (x : Int) (call : BfCall)
    (hcall : call = .get (.slice s e) ∨ call = .put (.slice s e) x ∨ call = .isRange s e x) :
    b.call call = (b, .error (if s = none then .typeError else .valueError)) := by
  have key : b.checkRange s e = .error (if s = none then .typeError else .valueError) := by
    cases s with
    | none => rfl
    | some s => rw [NoBits.checkRange, (noBits_index hb s).1]; rfl
  rcases hcall with rfl | rfl | rfl <;> simp only [NoBits.call, NoBits.checkKey, key]

/-- C201: there is no first or last bit, no number of bits and no text of a field of negative width. Asking
for the text ends with a ValueError, or with a TypeError where `int` of the field does. -/
theorem C201_shape {b : NoBits} (hb : b.width < 0) :
    b.indices = [] ∧ b.lsb = .error .indexError ∧ b.msb = .error .indexError ∧
    b.len = .error .valueError ∧ ((∃ v, b.toInt = .ok v) → b.repr = .error .valueError) ∧
    ((¬ ∃ v, b.toInt = .ok v) → b.repr = .error .typeError) := by
  refine ⟨rfl, ?_, ?_, if_pos hb, ?_⟩
  · rw [NoBits.lsb]; split_ifs <;> rfl
  · rw [NoBits.msb]; split_ifs <;> rfl
  · rw [NoBits.repr, NoBits.toInt]
    cases b.value with
    | some v => exact ⟨fun _ => rfl, fun h => absurd ⟨v, rfl⟩ h⟩
    | none => exact ⟨fun ⟨_, h⟩ => (by cases h), fun _ => rfl⟩

/-- C201: a field of width 0 refuses every call that is about bits too. -/
theorem C201_zero {b : BitField} (hb : b.width = 0) {call : BfCall} (hc : Bounded call)
    (hn : ∃ i, NamesBit call i) : call.ends b = .error .valueError := by
  obtain ⟨i, hi⟩ := hn
  have hno : ¬ HasBit b i := by rintro ⟨h1, h2⟩; omega
  have h1 : call.ends b ≠ .ok () := fun h =>
    (C182_ok (layoutOf .msbLeft) b call hc).1 h _ (.index hi hno (pyStr_shortest b.width))
  exact (ends_typeError hc).resolve_left h1

/-- A concrete case of C201: a field of width -3, and the same history with a field of width 0. -/
example : BitField.make (-5) (-3) 0 1 = .ok (.inr ⟨-3, some (-5), .lsb0, .lsbLeft⟩) ∧
    BitField.make 5 (-3) 0 1 = .error .valueError ∧
    BitField.make 5 0 0 1 = .error .valueError ∧
    ((⟨-3, some (-5), .lsb0, .lsbLeft⟩ : NoBits).after
      [.put (.idx 0) 1, .setValue 0, .clear none, .set (some 2)]).getValue = 0 ∧
    (⟨-3, some (-5), .lsb0, .lsbLeft⟩ : NoBits).callText (.setValue 0) =
      some (py "Illegal bit-field width -3!") := by
  refine ⟨?_, ?_, ?_, ?_, ?_⟩ <;> decide +kernel

end H800
