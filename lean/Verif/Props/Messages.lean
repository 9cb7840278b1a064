import Verif.Lemmas.Messages

/-!
C182: what the exceptions of a bit-field say.
-/

namespace H800
open Spec

theorem range_text : BitField.RANGE_TEXT =
    py "Invalid bit range for " ++ layoutOf .msbLeft ++ py " bit-field!" := rfl

/-- A text about the bounds of a range is right. -/
theorem range_fault {b : BitField} {call : BfCall} {s e : Int} {t : Str}
    (hn : NamesRange call s e) (hb : ∀ i, i = s ∨ i = e → NamesBit call i) (h : ¬ b.RangeOk s e)
    (ht : (if HasBit b s ∧ HasBit b e then some BitField.RANGE_TEXT
      else some (py "Invalid index for " ++ pyStr b.width ++ py "-bit bit-field!")) = some t) :
    BfFault (layoutOf .msbLeft) b call t := by
  by_cases hh : HasBit b s ∧ HasBit b e
  · rw [if_pos hh] at ht
    cases ht
    refine .range hn hh.1 hh.2 ?_
    by_contra hc
    exact h ⟨hh.1, hh.2, (b.ordered_iff s e).2 hc⟩
  · rw [if_neg hh] at ht
    cases ht
    by_cases h1 : HasBit b s
    · exact .index (hb e (Or.inr rfl)) (fun h2 => hh ⟨h1, h2⟩) (pyStr_shortest _)
    · exact .index (hb s (Or.inl rfl)) h1 (pyStr_shortest _)

theorem index_fault {b : BitField} {call : BfCall} {i : Int} {t : Str} (hn : NamesBit call i)
    (ht : b.checkIndexText i = some t) : BfFault (layoutOf .msbLeft) b call t := by
  rw [BitField.checkIndexText_eq] at ht
  by_cases h : HasBit b i
  · rw [if_pos h] at ht; cases ht
  · rw [if_neg h] at ht; cases ht
    exact .index hn h (pyStr_shortest _)

theorem fill_fault {b : BitField} {call : BfCall} {i : Option Int} {x : Int} {t : Str} (hx : x ≤ 2)
    (hn : ∀ j, i = some j ∧ j ≠ 0 → NamesBit call j) (ht : b.fillText x i = some t) :
    BfFault (layoutOf .msbLeft) b call t := by
  match i with
  | none => cases ht
  | some i =>
    simp only [BitField.fillText] at ht
    by_cases h0 : i = 0
    · rw [if_pos h0] at ht; cases ht
    · rw [if_neg h0, BitField.checkIndexText_eq, BitField.setIndexText_eq, if_pos hx] at ht
      by_cases h : HasBit b i
      · rw [if_pos h] at ht; cases ht
      · rw [if_neg h] at ht; cases ht
        exact .index (hn i ⟨rfl, h0⟩) h (pyStr_shortest _)

/-- C182: the message of a refused operation names something that is wrong with it, where it comes to the
layout, it always speaks of "MSB...LSB". Partial: that layout is the one of the field only if its most
significant bit is on the left. -/
theorem C182_true_partial {b : BitField} {call : BfCall} {t : Str} (ht : call.text b = some t) :
    BfFault (layoutOf .msbLeft) b call t := by
  cases call with
  | get k =>
    match k with
    | .idx i => exact index_fault rfl ht
    | .slice none e => cases ht
    | .slice (some s) none => exact index_fault (Or.inl rfl) ht
    | .slice (some s) (some e) =>
      simp only [BfCall.text, BitField.getitemText] at ht
      rw [BitField.checkRangeText_eq] at ht
      by_cases h : b.RangeOk s e
      · rw [if_pos h] at ht; cases ht
      · rw [if_neg h] at ht
        exact range_fault rfl (by rintro i (rfl | rfl); exacts [Or.inl rfl, Or.inr rfl]) h ht
  | put k x =>
    match k with
    | .idx i =>
      simp only [BfCall.text] at ht
      rw [BitField.setIndexText_eq] at ht
      by_cases h : HasBit b i
      · rw [if_pos h] at ht
        by_cases hx : x ≤ 2
        · rw [if_pos hx] at ht; cases ht
        · rw [if_neg hx] at ht; cases ht
          exact .value (n := 1) (w := pyStr 1) ⟨rfl, rfl⟩ (by omega) (pyStr_shortest _)
      · rw [if_neg h] at ht; cases ht
        exact .index rfl h (pyStr_shortest _)
    | .slice none e => cases ht
    | .slice (some s) none => exact index_fault (Or.inl rfl) ht
    | .slice (some s) (some e) =>
      simp only [BfCall.text] at ht
      rcases b.range_cases s e with ⟨lo, n, h⟩ | h
      · rw [BitField.setSliceText_span h] at ht
        by_cases hx : x ≤ 2 ^ n
        · rw [if_pos hx] at ht; cases ht
        · rw [if_neg hx] at ht; cases ht
          exact .value ⟨rfl, BitField.span_count h⟩ (by omega) (pyStr_shortest _)
      · rw [BitField.setSliceText_bad h] at ht
        exact range_fault rfl (by rintro i (rfl | rfl); exacts [Or.inl rfl, Or.inr rfl]) h ht
  | setValue x =>
    simp only [BfCall.text] at ht
    rw [BitField.setValueText_eq] at ht
    by_cases hx : x ≤ 2 ^ b.width
    · rw [if_pos hx] at ht; cases ht
    · rw [if_neg hx] at ht; cases ht
      exact .value ⟨rfl, rfl⟩ (by omega) (pyStr_shortest _)
  | set i => exact fill_fault (by omega) (fun _ h => h) ht
  | clear i => exact fill_fault (by omega) (fun _ h => h) ht
  | isBit i x => exact index_fault rfl ht
  | isRange s e x =>
    match s, e with
    | none, e => cases ht
    | some s, none => exact index_fault (Or.inl rfl) ht
    | some s, some e =>
      simp only [BfCall.text, BitField.isRangeText] at ht
      rw [BitField.checkRangeText_eq] at ht
      by_cases h : b.RangeOk s e
      · rw [if_pos h, Option.none_or] at ht
        by_cases hx : x = 0 ∨ x = 1
        · rw [if_neg (not_not_intro hx)] at ht; cases ht
        · rw [if_pos hx] at ht; cases ht
          exact .truth rfl (fun g => hx (Or.inl g)) (fun g => hx (Or.inr g))
      · rw [if_neg h] at ht
        refine range_fault (s := s) (e := e) ⟨rfl, rfl⟩
          (by rintro i (rfl | rfl); exacts [Or.inl rfl, Or.inr rfl]) h ?_
        rw [← ht]
        split <;> rfl

/-- C182 as stated: the layout named is the one of the field. -/
def C182_statement : Prop := ∀ (b : BitField) (call : BfCall) (t : Str), call.text b = some t →
  BfFault (layoutOf b.order) b call t

/-- C182 is false: a field with its least significant bit on the left is told of "MSB...LSB". -/
theorem C182_refuted : ¬ C182_statement := by
  intro h
  have := h ⟨8, 0, .lsb0, .lsbLeft⟩ (.get (.slice (some 5) (some 2))) _ rfl
  have hne : ∀ t, BfFault (layoutOf .lsbLeft) ⟨8, 0, .lsb0, .lsbLeft⟩
      (.get (.slice (some 5) (some 2))) t → t ≠ py "Invalid bit range for MSB...LSB bit-field!" := by
    intro t ht
    cases ht with
    | index _ _ _ => intro h; simp at h
    | range _ _ _ _ => decide
    | value hw _ _ => exact hw.elim
    | truth h _ _ => cases h
  exact hne _ this rfl

/-- C182: a text is there exactly if the operation ends with ValueError. -/
theorem C182_raise (b : BitField) (call : BfCall) :
    (∃ t, call.text b = some t) ↔ call.ends b = .error .valueError := by
  rw [← bf_raise, Option.isSome_iff_exists]

theorem ends_typeError {b : BitField} {call : BfCall} (hb : Bounded call) :
    call.ends b = .ok () ∨ call.ends b = .error .valueError := by
  have hset : ∀ (i : Option Int) (x v : Int),
      (match i with
        | none => ({ b with value := v }, .ok ())
        | some i =>
          if i = 0 then ({ b with value := v }, .ok ())
          else match b.checkIndex (some i) with
            | .ok _ => b.setitem (.idx i) x
            | .error e => (b, .error e) : BitField × Py Unit).2 = .ok () ∨
      (match i with
        | none => ({ b with value := v }, .ok ())
        | some i =>
          if i = 0 then ({ b with value := v }, .ok ())
          else match b.checkIndex (some i) with
            | .ok _ => b.setitem (.idx i) x
            | .error e => (b, .error e) : BitField × Py Unit).2 = .error .valueError := by
    intro i x v
    match i with
    | none => exact Or.inl rfl
    | some i =>
      by_cases h0 : i = 0
      · simp [h0]
      · simp only [if_neg h0]
        rw [BitField.checkIndex_some]
        by_cases h : 0 ≤ b.wt i ∧ b.wt i < b.width
        · rw [if_pos h]
          have hn := b.newIndex_eq i x
          rw [if_pos h] at hn
          by_cases hx : x ≤ 2
          · rw [if_pos hx] at hn; rw [BitField.setitem_idx_ok hn]; exact Or.inl rfl
          · rw [if_neg hx] at hn; rw [BitField.setitem_idx_error hn]; exact Or.inr rfl
        · rw [if_neg h]; exact Or.inr rfl
  cases call with
  | get k =>
    match k with
    | .idx i =>
      simp only [BfCall.ends, BitField.getitem]
      rw [BitField.getIndex_eq]
      split
      · exact Or.inl rfl
      · exact Or.inr rfl
    | .slice none e => exact absurd rfl hb.1
    | .slice (some s) none => exact absurd rfl hb.2
    | .slice (some s) (some e) =>
      simp only [BfCall.ends, BitField.getitem]
      rcases b.range_cases s e with ⟨lo, n, h⟩ | h
      · rw [BitField.getSlice_span h]; exact Or.inl rfl
      · simp only [BitField.getSlice, BitField.checkRange_some, if_neg h]
        exact Or.inr rfl
  | put k x =>
    match k with
    | .idx i =>
      simp only [BfCall.ends]
      have hn := b.newIndex_eq i x
      by_cases h : 0 ≤ b.wt i ∧ b.wt i < b.width
      · rw [if_pos h] at hn
        by_cases hx : x ≤ 2
        · rw [if_pos hx] at hn; rw [BitField.setitem_idx_ok hn]; exact Or.inl rfl
        · rw [if_neg hx] at hn; rw [BitField.setitem_idx_error hn]; exact Or.inr rfl
      · rw [if_neg h] at hn; rw [BitField.setitem_idx_error hn]; exact Or.inr rfl
    | .slice none e => exact absurd rfl hb.1
    | .slice (some s) none => exact absurd rfl hb.2
    | .slice (some s) (some e) =>
      simp only [BfCall.ends]
      rcases b.range_cases s e with ⟨lo, n, h⟩ | h
      · have hn := BitField.newSlice_span h x
        by_cases hx : x ≤ 2 ^ n
        · rw [if_pos hx] at hn; rw [BitField.setitem_slice_ok hn]; exact Or.inl rfl
        · rw [if_neg hx] at hn; rw [BitField.setitem_slice_error hn]; exact Or.inr rfl
      · rw [BitField.setitem_slice_error (newSlice_bad h x)]; exact Or.inr rfl
  | setValue x =>
    simp only [BfCall.ends, BitField.setValue, BitField.checkValue_none]
    by_cases h : x ≤ 2 ^ b.width <;> simp [h]
  | set i => exact hset i 1 b.maxval
  | clear i => exact hset i 0 0
  | isBit i x =>
    simp only [BfCall.ends, BitField.isBit]
    rw [BitField.getIndex_eq, BitField.checkIndex_some]
    by_cases h : 0 ≤ b.wt i ∧ b.wt i < b.width <;> simp [h, Except.map]
  | isRange s e x =>
    match s, e with
    | none, e => exact absurd rfl hb.1
    | some s, none => exact absurd rfl hb.2
    | some s, some e =>
      simp only [BfCall.ends, BitField.isRange]
      rw [BitField.checkRange_some]
      rcases b.range_cases s e with ⟨lo, n, h⟩ | h
      · rw [if_pos (BitField.span_rangeOk h), BitField.getSlice_span h, BitField.bitmask_span h]
        by_cases hx : x = 0 ∨ x = 1
        · rw [if_neg (not_not_intro hx)]
          by_cases h0 : x = 0 <;> simp [h0, Except.map]
        · rw [if_pos hx]; exact Or.inr rfl
      · rw [if_neg h]; exact Or.inr rfl

/-- What is wrong with a call with both bounds does not go unnoticed. -/
theorem fault_text {layout : Str} {b : BitField} {call : BfCall} {t : Str} (hb : Bounded call)
    (h : BfFault layout b call t) : (call.text b).isSome := by
  have hI : ∀ i, ¬ HasBit b i → (b.checkIndexText i).isSome := by
    intro i hi
    rw [BitField.checkIndexText_eq, if_neg hi]; rfl
  have hR : ∀ s e, ¬ b.RangeOk s e → (b.checkRangeText (some s) (some e)).isSome := by
    intro s e h
    rw [BitField.checkRangeText_eq, if_neg h]; split <;> rfl
  have hP : ∀ s e x, ¬ b.RangeOk s e → (b.setitemText (.slice (some s) (some e)) x).isSome := by
    intro s e x h
    rw [BitField.setSliceText_bad h]; split <;> rfl
  have hor : ∀ {α : Type} (x y : Option α), x.isSome → (x.or y).isSome := by
    intro α x y hx
    cases x with
    | none => cases hx
    | some v => rfl
  have hfill : ∀ (i : Option Int) (x j : Int), i = some j → j ≠ 0 → ¬ HasBit b j →
      (b.fillText x i).isSome := by
    rintro _ x j rfl h0 hj
    simp only [BitField.fillText, if_neg h0]
    exact hor _ _ (hI j hj)
  have hbad1 : ∀ s e i, s = some i ∨ e = some i → s ≠ none ∧ e ≠ none → ¬ HasBit b i →
      ∃ s' e', s = some s' ∧ e = some e' ∧ ¬ b.RangeOk s' e' := by
    rintro s e i hi ⟨h1, h2⟩ hb
    obtain ⟨s', rfl⟩ := Option.ne_none_iff_exists'.1 h1
    obtain ⟨e', rfl⟩ := Option.ne_none_iff_exists'.1 h2
    refine ⟨s', e', rfl, rfl, fun hr => hb ?_⟩
    rcases hi with hi | hi <;> cases hi
    · exact hr.1
    · exact hr.2.1
  cases h with
  | @index i w hn hi hw =>
    cases call with
    | get k =>
      match k with
      | .idx j => cases hn; exact hI _ hi
      | .slice s e =>
        obtain ⟨s', e', rfl, rfl, hr⟩ := hbad1 _ _ _ hn hb hi
        exact hR _ _ hr
    | put k x =>
      match k with
      | .idx j =>
        cases hn
        exact hor _ _ (hI _ hi)
      | .slice s e =>
        obtain ⟨s', e', rfl, rfl, hr⟩ := hbad1 _ _ _ hn hb hi
        exact hP _ _ _ hr
    | setValue x => exact hn.elim
    | set j => exact hfill _ _ _ hn.1 hn.2 hi
    | clear j => exact hfill _ _ _ hn.1 hn.2 hi
    | isBit j x => cases hn; exact hI _ hi
    | isRange s e x =>
      obtain ⟨s', e', rfl, rfl, hr⟩ := hbad1 _ _ _ hn hb hi
      exact hor _ _ (hR _ _ hr)
  | @range s e hn h1 h2 h3 =>
    have hr : ¬ b.RangeOk s e := fun hr => (b.ordered_iff s e).1 hr.2.2 h3
    cases call with
    | get k => cases hn; exact hR _ _ hr
    | put k x => cases hn; exact hP _ _ _ hr
    | setValue x => exact hn.elim
    | set j => exact hn.elim
    | clear j => exact hn.elim
    | isBit j x => exact hn.elim
    | isRange s e x => obtain ⟨rfl, rfl⟩ := hn; exact hor _ _ (hR _ _ hr)
  | @value x n w hw hx _ =>
    cases call with
    | put k y =>
      match k with
      | .idx j =>
        obtain ⟨rfl, rfl⟩ := hw
        simp only [BfCall.text]
        rw [BitField.setIndexText_eq]
        split
        · rw [if_neg (by omega)]; rfl
        · rfl
      | .slice none e => exact hw.elim
      | .slice (some s) none => exact hw.elim
      | .slice (some s) (some e) =>
        obtain ⟨rfl, hn⟩ := hw
        simp only [BfCall.text]
        rcases b.range_cases s e with ⟨lo, m, h⟩ | h
        · have : m = n := (BitField.span_count h).trans hn.symm
          subst this
          rw [BitField.setSliceText_span h, if_neg (by omega)]; rfl
        · exact hP _ _ _ h
    | setValue y =>
      obtain ⟨rfl, rfl⟩ := hw
      simp only [BfCall.text]
      rw [BitField.setValueText_eq, if_neg (by omega)]; rfl
    | get k => exact hw.elim
    | set j => exact hw.elim
    | clear j => exact hw.elim
    | isBit j x => exact hw.elim
    | isRange s e x => exact hw.elim
  | @truth s e x hc h0 h1 =>
    subst hc
    obtain ⟨s', rfl⟩ := Option.ne_none_iff_exists'.1 hb.1
    obtain ⟨e', rfl⟩ := Option.ne_none_iff_exists'.1 hb.2
    simp only [BfCall.text, BitField.isRangeText]
    rw [if_pos (by omega)]
    cases b.checkRangeText (some s') (some e') <;> rfl

/-- C182: an operation with both bounds is carried out exactly if nothing is wrong with it. -/
theorem C182_ok (layout : Str) (b : BitField) (call : BfCall) (hb : Bounded call) :
    call.ends b = .ok () ↔ ∀ t, ¬ BfFault layout b call t := by
  constructor
  · intro h t hf
    have := (bf_raise b call).1 (fault_text hb hf)
    rw [h] at this; cases this
  · intro h
    rcases ends_typeError (b := b) hb with h1 | h1
    · exact h1
    · obtain ⟨t, ht⟩ := (C182_raise b call).2 h1
      have := C182_true_partial ht
      exfalso
      cases this with
      | index a1 a2 a3 => exact h _ (.index a1 a2 a3)
      | range a1 a2 a3 a4 => exact h _ (.range a1 a2 a3 a4)
      | value a1 a2 a3 => exact h _ (.value a1 a2 a3)
      | truth a1 a2 a3 => exact h _ (.truth a1 a2 a3)

/-- C182: the message of a refused constructor call is true. -/
theorem C182_new {value : Int} {width : Nat} {numbering order : Int} {t : Str}
    (ht : BitField.initText value width numbering order = some t) :
    NewBfFault value width numbering order t := by
  unfold BitField.initText at ht
  by_cases h1 : width > BitField.MAX_WIDTH
  · rw [if_pos h1] at ht; cases ht; exact .width h1
  · rw [if_neg h1] at ht
    by_cases h2 : value > 2 ^ width - 1
    · rw [if_pos h2] at ht; cases ht; exact .value (by omega)
    · rw [if_neg h2] at ht
      cases hn : BitField.numberingOf numbering with
      | error e =>
        simp only [hn] at ht; cases ht
        refine .numbering ?_
        rintro (_ | _ | _ | _) rfl <;> cases hn
      | ok n =>
        simp only [hn] at ht
        cases ho : BitField.orderOf order with
        | error e =>
          simp only [ho] at ht; cases ht
          refine .order ?_ ?_ <;> rintro rfl <;> cases ho
        | ok o => simp only [ho] at ht; cases ht

/-- C182: the constructor returns exactly if nothing is wrong with its arguments; otherwise it says
so. -/
theorem C182_new_ok (value : Int) (width : Nat) (numbering order : Int) :
    ((∃ b, BitField.init value width numbering order = .ok b) ↔
      ∀ t, ¬ NewBfFault value width numbering order t) ∧
    (BitField.init value width numbering order = .error .valueError ↔
      ∃ t, BitField.initText value width numbering order = some t) := by
  have hnum : ∀ e, BitField.numberingOf numbering = .error e → e = .valueError := by
    intro e h; unfold BitField.numberingOf at h; split at h <;> cases h; rfl
  have hord : ∀ e, BitField.orderOf order = .error e → e = .valueError := by
    intro e h; unfold BitField.orderOf at h; split at h <;> cases h; rfl
  have key : (∃ b, BitField.init value width numbering order = .ok b ∧
      BitField.initText value width numbering order = none) ∨
      (BitField.init value width numbering order = .error .valueError ∧
        ∃ t, BitField.initText value width numbering order = some t) := by
    unfold BitField.init BitField.initText
    by_cases h1 : width > BitField.MAX_WIDTH
    · rw [if_pos h1, if_pos h1]; exact Or.inr ⟨rfl, _, rfl⟩
    · rw [if_neg h1, if_neg h1]
      by_cases h2 : value > 2 ^ width - 1
      · rw [if_pos h2, if_pos h2]; exact Or.inr ⟨rfl, _, rfl⟩
      · rw [if_neg h2, if_neg h2]
        cases hn : BitField.numberingOf numbering with
        | error e => cases hnum e hn; exact Or.inr ⟨rfl, _, rfl⟩
        | ok n =>
          cases ho : BitField.orderOf order with
          | error e => cases hord e ho; exact Or.inr ⟨rfl, _, rfl⟩
          | ok o => exact Or.inl ⟨_, rfl, rfl⟩
  refine ⟨⟨?_, ?_⟩, ?_⟩
  · rintro ⟨b, hb⟩ t ht
    have hok := hb
    unfold BitField.init at hb
    by_cases h1 : width > BitField.MAX_WIDTH
    · rw [if_pos h1] at hb; cases hb
    · rw [if_neg h1] at hb
      by_cases h2 : value > 2 ^ width - 1
      · rw [if_pos h2] at hb; cases hb
      · rw [if_neg h2] at hb
        cases hn : BitField.numberingOf numbering with
        | error e => simp [hn] at hb
        | ok n =>
          cases ho : BitField.orderOf order with
          | error e => simp [hn, ho] at hb
          | ok o =>
            cases ht with
            | width h => exact h1 h
            | value h => exact h2 (by omega)
            | numbering h =>
              unfold BitField.numberingOf at hn
              split at hn
              · exact h .lsb0 rfl
              · exact h .lsb1 rfl
              · exact h .msb0 rfl
              · exact h .msb1 rfl
              · cases hn
            | order h h' =>
              unfold BitField.orderOf at ho
              split at ho
              · exact h rfl
              · exact h' rfl
              · cases ho
  · intro h
    rcases key with ⟨b, hb, _⟩ | ⟨_, t, ht⟩
    · exact ⟨b, hb⟩
    · exact absurd (C182_new ht) (h t)
  · rcases key with ⟨b, hb, hn⟩ | ⟨he, t, ht⟩
    · rw [hb, hn]; simp
    · exact ⟨fun _ => ⟨t, ht⟩, fun _ => he⟩

/-- A 12-bit field: what is said, and that the second writes are carried out. -/
example : (BfCall.put (.slice (some 1) (some 6)) 65).text ⟨12, 0, .msb1, .msbLeft⟩ =
      some (py "Value is greater than allowed for 6-bit field!") ∧
    (BfCall.put (.slice (some 1) (some 6)) 64).ends ⟨12, 0, .msb1, .msbLeft⟩ = .ok () ∧
    (BfCall.get (.idx 13)).text ⟨12, 0, .msb1, .msbLeft⟩ =
      some (py "Invalid index for 12-bit bit-field!") ∧
    (BfCall.get (.slice (some 6) (some 1))).text ⟨12, 0, .msb1, .msbLeft⟩ =
      some (py "Invalid bit range for MSB...LSB bit-field!") ∧
    (BfCall.isRange (some 1) (some 6) 2).text ⟨12, 0, .msb1, .msbLeft⟩ =
      some (py "Bit-field Value must be 0 or 1!") ∧
    BitField.initText 0 65 3 0 = some (py "Width is greater than maximum allowed!") ∧
    BitField.initText 4096 12 3 0 =
      some (py "Value is greater than maximum allowed by bit-field width!") ∧
    Bounded (.put (.slice (some 1) (some 6)) 65) := by
  refine ⟨?_, ?_, ?_, ?_, ?_, ?_, ?_, ?_⟩
  all_goals first | decide +kernel | exact ⟨nofun, nofun⟩

end H800
