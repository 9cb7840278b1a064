import Verif.Lemmas.Messages
import Verif.Props.Memory
import Verif.Props.Word

/-!
C184: what the exceptions of words and of the memory say.
-/

namespace H800
open Spec BitField

/-- C184: the message of a refused word is given exactly if the data are no number of 48 bits. -/
theorem C184_word (data : Int) :
    ((∃ w, Word.init data = .ok w) ↔ Fits 48 data) ∧
    (Word.init data = .error .valueError ↔ ∃ t, Word.initText data = some t) ∧
    ∀ t, Word.initText data = some t ↔ ¬ Fits 48 data ∧ t = py "Invalid value for 48-bit word!" := by
  rw [word_init]
  unfold Word.initText
  by_cases h : Fits 48 data
  · rw [if_pos h, if_neg ((fits48 data).1 h)]
    exact ⟨⟨fun _ => h, fun _ => ⟨_, rfl⟩⟩, by simp, fun t => by simp [h]⟩
  · have h' : data < 0 ∨ data > 2 ^ 48 - 1 := by
      rw [fits48] at h; exact not_not.1 h
    rw [if_neg h, if_pos h']
    refine ⟨⟨nofun, fun g => absurd g h⟩, ⟨fun _ => ⟨_, rfl⟩, fun _ => rfl⟩, ?_⟩
    intro t
    constructor
    · rintro ⟨⟩; exact ⟨h, rfl⟩
    · rintro ⟨_, rfl⟩; rfl

theorem setValueText_word (u v : Int) : (mkWord u).setValueText v =
    if Fits 48 v then none else some Word.VALUE_TEXT := by
  unfold Word.setValueText
  by_cases h : Fits 48 v
  · rw [if_pos h, if_neg ((fits48 v).1 h), BitField.setValueText_eq,
      if_pos (by unfold Fits at h; change v ≤ 2 ^ 48; omega)]
  · rw [if_neg h, if_pos (by rw [fits48] at h; exact not_not.1 h)]

/-- What the fields of an instruction word span. -/
theorem iword_span (u : Int) (f : IField) :
    ∃ s e, f.key = .slice (some s) (some e) ∧
      (BitField.mk 48 u .msb1 .msbLeft).Span s e f.lo 12 := by
  cases f
  · exact ⟨1, 12, rfl, by decide, Nat.le_of_ble_eq_true rfl, rfl, rfl⟩
  · exact ⟨13, 24, rfl, by decide, Nat.le_of_ble_eq_true rfl, rfl, rfl⟩
  · exact ⟨25, 36, rfl, by decide, Nat.le_of_ble_eq_true rfl, rfl, rfl⟩
  · exact ⟨37, 48, rfl, by decide, Nat.le_of_ble_eq_true rfl, rfl, rfl⟩

/-- The message for a value that is too large for a field of an instruction word. -/
def fieldText : Str := py "Value is greater than allowed for 12-bit field!"

theorem iword_setText (u x : Int) (f : IField) :
    (BitField.mk 48 u .msb1 .msbLeft).setitemText f.key x =
      if x ≤ 4096 then none else some fieldText := by
  obtain ⟨s, e, hk, hs⟩ := iword_span u f
  rw [hk, setSliceText_span hs]
  rfl

theorem iword_assign (u x : Int) (f : IField) :
    (x ≤ 4096 ∧ ∃ v, (BitField.mk 48 u .msb1 .msbLeft).setitem f.key x =
      (BitField.mk 48 v .msb1 .msbLeft, .ok ())) ∨
    (4096 < x ∧ (BitField.mk 48 u .msb1 .msbLeft).setitem f.key x =
      (BitField.mk 48 u .msb1 .msbLeft, .error .valueError)) := by
  obtain ⟨s, e, hk, hs⟩ := iword_span u f
  have h := newSlice_span hs x
  rw [hk]
  by_cases hx : x ≤ 4096
  · rw [if_pos (by norm_num; omega)] at h
    exact Or.inl ⟨hx, _, setitem_slice_ok h⟩
  · rw [if_neg (by norm_num; omega)] at h
    exact Or.inr ⟨by omega, setitem_slice_error h⟩

/-- The words that a history of writes makes of a new one. -/
theorem iwRun_shape {w0 : Word} {d : Int} (h : Word.init d = .ok w0) (ops : List IwOp) :
    ∃ v, ops.foldl IwOp.run w0 = mkWord v := by
  rw [word_init] at h
  split at h
  · cases h
    generalize hd : d = u
    clear hd
    induction ops generalizing u with
    | nil => exact ⟨u, rfl⟩
    | cons op ops ih =>
      have : ∃ v, op.run (mkWord u) = mkWord v := by
        cases op with
        | field f x =>
          simp only [IwOp.run, InstructionWord.set, mkWord]
          rcases iword_assign u x f with ⟨_, v, hv⟩ | ⟨_, hv⟩ <;> rw [hv] <;> exact ⟨_, rfl⟩
        | value v =>
          simp only [IwOp.run]
          rw [word_setValue]
          split <;> exact ⟨_, rfl⟩
      obtain ⟨v, hv⟩ := this
      rw [List.foldl_cons, hv]
      exact ih v
  · cases h

/-- C184: so is the one of a refused new value of any word, whatever was written to it before. -/
theorem C184_word_set {d : Int} {w0 : Word} (h0 : Word.init d = .ok w0) (ops : List IwOp) (v : Int) :
    (((ops.foldl IwOp.run w0).setValue v).2 = .error .valueError ↔
      ∃ t, (ops.foldl IwOp.run w0).setValueText v = some t) ∧
    ∀ t, (ops.foldl IwOp.run w0).setValueText v = some t ↔
      ¬ Fits 48 v ∧ t = py "Invalid value for 48-bit word!" := by
  obtain ⟨u, hu⟩ := iwRun_shape h0 ops
  rw [hu, word_setValue, setValueText_word]
  by_cases h : Fits 48 v
  · simp [h]
  · rw [if_neg h, if_neg h]
    refine ⟨⟨fun _ => ⟨_, rfl⟩, fun _ => rfl⟩, fun t => ?_⟩
    constructor
    · rintro ⟨⟩; exact ⟨h, rfl⟩
    · rintro ⟨_, rfl⟩; rfl

/-- C184: the message for a part of an instruction word is given exactly if the value is greater than
4096, the first number beyond 12 bits, which slips through. -/
theorem C184_field_set {d : Int} {w0 : Word} (h0 : Word.init d = .ok w0) (ops : List IwOp)
    (f : IField) (v : Int) :
    ((InstructionWord.set (ops.foldl IwOp.run w0) f v).2 = .error .valueError ↔
      ∃ t, InstructionWord.setText (ops.foldl IwOp.run w0) f v = some t) ∧
    (∀ t, InstructionWord.setText (ops.foldl IwOp.run w0) f v = some t ↔
      2 ^ 12 < v ∧ t = py "Value is greater than allowed for 12-bit field!") ∧
    InstructionWord.getText (ops.foldl IwOp.run w0) f = none := by
  obtain ⟨u, hu⟩ := iwRun_shape h0 ops
  rw [hu]
  have hg : InstructionWord.getText (mkWord u) f = none := by
    obtain ⟨s, e, hk, hs⟩ := iword_span u f
    unfold InstructionWord.getText
    rw [hk]
    simp only [mkWord, getitemText]
    rw [checkRangeText_eq, if_pos (span_rangeOk hs)]
  refine ⟨?_, ?_, hg⟩
  · simp only [InstructionWord.set, InstructionWord.setText, mkWord, iword_setText]
    rcases iword_assign u v f with ⟨hx, w, hw⟩ | ⟨hx, hw⟩
    · rw [hw, if_pos hx]; simp
    · rw [hw, if_neg (by omega)]; simp
  · intro t
    simp only [InstructionWord.setText, mkWord, iword_setText]
    by_cases hx : v ≤ 4096
    · rw [if_pos hx]
      constructor
      · nofun
      · rintro ⟨h, _⟩; norm_num at h; omega
    · rw [if_neg hx]
      constructor
      · rintro ⟨⟩; exact ⟨by norm_num; omega, rfl⟩
      · rintro ⟨_, rfl⟩; rfl

theorem fillText_iff (l : List (IField × Int)) (u : Int) (t : Str) :
    InstructionWord.fillText l (BitField.mk 48 u .msb1 .msbLeft) = some t ↔
      (∃ p ∈ l, 4096 < p.2) ∧ t = fieldText := by
  induction l generalizing u with
  | nil => simp [InstructionWord.fillText]
  | cons p l ih =>
    obtain ⟨f, x⟩ := p
    simp only [InstructionWord.fillText]
    rcases iword_assign u x f with ⟨hx, w, hw⟩ | ⟨hx, hw⟩
    · rw [assign_ok hw]
      simp only [ih, List.mem_cons]
      constructor
      · rintro ⟨⟨p, hp, h⟩, rfl⟩; exact ⟨⟨p, Or.inr hp, h⟩, rfl⟩
      · rintro ⟨⟨p, rfl | hp, h⟩, rfl⟩
        · simp only at h; omega
        · exact ⟨⟨p, hp, h⟩, rfl⟩
    · have ha : (BitField.mk 48 u .msb1 .msbLeft).assign f.key x = .error .valueError := by
        unfold BitField.assign; rw [hw]
      rw [ha]
      simp only [iword_setText]
      rw [if_neg (by omega)]
      constructor
      · rintro ⟨⟩; exact ⟨⟨(f, x), by simp, hx⟩, rfl⟩
      · rintro ⟨_, rfl⟩; rfl

/-- C184: the message of a refused instruction word is given exactly if one of its four parts is greater
than 4096. -/
theorem C184_iword (c a b d : Int) :
    ((∃ w, InstructionWord.init c a b d = .ok w) ↔ ∀ x ∈ [c, a, b, d], x ≤ 2 ^ 12) ∧
    (InstructionWord.init c a b d = .error .valueError ↔
      ∃ t, InstructionWord.initText c a b d = some t) ∧
    ∀ t, InstructionWord.initText c a b d = some t ↔ (∃ x ∈ [c, a, b, d], 2 ^ 12 < x) ∧
      t = py "Value is greater than allowed for 12-bit field!" := by
  have ht : ∀ t, InstructionWord.initText c a b d = some t ↔ (∃ x ∈ [c, a, b, d], 2 ^ 12 < x) ∧
      t = py "Value is greater than allowed for 12-bit field!" := by
    intro t
    unfold InstructionWord.initText
    rw [word_init, if_pos (by decide)]
    simp only [mkWord, fillText_iff]
    norm_num [fieldText]
  have hi : (∃ w, InstructionWord.init c a b d = .ok w) ∧ (∀ x ∈ [c, a, b, d], x ≤ 4096) ∨
      InstructionWord.init c a b d = .error .valueError ∧ ∃ x ∈ [c, a, b, d], 4096 < x := by
    have asg : ∀ u x f, (x ≤ 4096 ∧ ∃ v, (BitField.mk 48 u .msb1 .msbLeft).assign f x =
        .ok (BitField.mk 48 v .msb1 .msbLeft)) ∨
        (4096 < x ∧ (BitField.mk 48 u .msb1 .msbLeft).assign f x = .error .valueError) ∨
        ∀ g : IField, f ≠ g.key := by
      intro u x f
      by_cases hf : ∃ g : IField, f = g.key
      · obtain ⟨g, rfl⟩ := hf
        rcases iword_assign u x g with ⟨hx, w, hw⟩ | ⟨hx, hw⟩
        · exact Or.inl ⟨hx, w, assign_ok hw⟩
        · exact Or.inr (Or.inl ⟨hx, by unfold BitField.assign; rw [hw]⟩)
      · exact Or.inr (Or.inr fun g hg => hf ⟨g, hg⟩)
    have as' : ∀ u x (g : IField), (x ≤ 4096 ∧ ∃ v, (BitField.mk 48 u .msb1 .msbLeft).assign g.key x =
        .ok (BitField.mk 48 v .msb1 .msbLeft)) ∨
        (4096 < x ∧ (BitField.mk 48 u .msb1 .msbLeft).assign g.key x = .error .valueError) := by
      intro u x g
      rcases asg u x g.key with h | h | h
      · exact Or.inl h
      · exact Or.inr h
      · exact absurd rfl (h g)
    unfold InstructionWord.init
    rw [word_init, if_pos (by decide)]
    simp only [py_bind_ok, mkWord]
    rcases as' 0 c .command with ⟨h1, v1, e1⟩ | ⟨h1, e1⟩
    · rw [e1]; simp only [py_bind_ok]
      rcases as' v1 a .a with ⟨h2, v2, e2⟩ | ⟨h2, e2⟩
      · rw [e2]; simp only [py_bind_ok]
        rcases as' v2 b .b with ⟨h3, v3, e3⟩ | ⟨h3, e3⟩
        · rw [e3]; simp only [py_bind_ok]
          rcases as' v3 d .c with ⟨h4, v4, e4⟩ | ⟨h4, e4⟩
          · rw [e4]
            exact Or.inl ⟨⟨_, rfl⟩, by simp [h1, h2, h3, h4]⟩
          · rw [e4]; exact Or.inr ⟨rfl, d, by simp, h4⟩
        · rw [e3]; exact Or.inr ⟨rfl, b, by simp, h3⟩
      · rw [e2]; exact Or.inr ⟨rfl, a, by simp, h2⟩
    · rw [e1]; exact Or.inr ⟨rfl, c, by simp, h1⟩
  refine ⟨?_, ?_, ht⟩
  · rcases hi with ⟨h1, h2⟩ | ⟨h1, x, hx, h2⟩
    · exact ⟨fun _ => h2, fun _ => h1⟩
    · constructor
      · rintro ⟨w, hw⟩; rw [hw] at h1; cases h1
      · intro h; have := h x hx; norm_num at this; omega
  · rcases hi with ⟨⟨w, hw⟩, h2⟩ | ⟨h1, x, hx, h2⟩
    · rw [hw]
      constructor
      · nofun
      · rintro ⟨t, h⟩
        obtain ⟨⟨x, hx, hlt⟩, _⟩ := (ht t).1 h
        have := h2 x hx
        norm_num at hlt; omega
    · exact ⟨fun _ => ⟨_, (ht _).2 ⟨⟨x, hx, by norm_num; omega⟩, rfl⟩⟩, fun _ => h1⟩

theorem setText_mk (vs : List Int) (c : Nat) (a v : Int) :
    (MemoryBank.mkBank vs c).setText a v = if (0 ≤ a ∧ a.toNat < vs.length) ∧ ¬ Fits 48 v
      then some Word.VALUE_TEXT else none := by
  unfold MemoryBank.setText
  rw [MemoryBank.word_mk]
  by_cases h : 0 ≤ a ∧ a.toNat < vs.length
  · rw [dif_pos h]
    simp only [setValueText_word]
    by_cases hv : Fits 48 v <;> simp [h, hv]
  · rw [dif_neg h, if_neg (fun g => h g.1)]

/-- C184: the message of a refused write to a memory bank, whatever was done with the bank before. -/
theorem C184_memory {m : MemoryBank} (hm : BankReach m) (a v : Int) :
    ((m.set a v).2 = .error .valueError ↔ ∃ t, m.setText a v = some t) ∧
    ∀ t, m.setText a v = some t ↔
      0 ≤ a ∧ a < 2048 ∧ ¬ Fits 48 v ∧ t = py "Invalid value for 48-bit word!" := by
  obtain ⟨mem, vs, c, rfl, hl, _⟩ := bankReach_rep hm
  rw [setText_mk, MemoryBank.set_mk]
  have ha : (0 ≤ a ∧ a.toNat < vs.length) ↔ (0 ≤ a ∧ a < 2048) := by omega
  simp only [ha]
  by_cases h : 0 ≤ a ∧ a < 2048
  · by_cases hv : Fits 48 v
    · simp [h, hv]
    · simp only [h, hv, and_self, not_false_eq_true, if_true, if_false]
      refine ⟨⟨fun _ => ⟨_, rfl⟩, fun _ => trivial⟩, fun t => ?_⟩
      constructor
      · rintro ⟨⟩; exact ⟨trivial, trivial, trivial, rfl⟩
      · rintro ⟨_, _, _, rfl⟩; rfl
  · rw [if_neg h, if_neg (fun g => h g.1)]
    refine ⟨by simp, fun t => ⟨nofun, ?_⟩⟩
    rintro ⟨h1, h2, _⟩
    exact absurd ⟨h1, h2⟩ h

/-- C184: the two checks of a bank, which no write calls: they let pass exactly the writes that are
carried out, and their messages are given exactly if the address or the value is out of range. -/
theorem C184_checks {m : MemoryBank} (hm : BankReach m) (a v : Int) :
    (MemoryBank.checkAddress a = .ok () ∧ MemoryBank.checkValue v = .ok () ↔
      (m.set a v).2 = .ok ()) ∧
    (MemoryBank.checkAddress a = .ok () ↔ MemoryBank.checkAddressText a = none) ∧
    (MemoryBank.checkValue v = .ok () ↔ MemoryBank.checkValueText v = none) ∧
    (∀ t, MemoryBank.checkAddressText a = some t ↔
      ¬ (0 ≤ a ∧ a < 2048) ∧ t = py "Invalid value for address!") ∧
    ∀ t, MemoryBank.checkValueText v = some t ↔
      ¬ Fits 48 v ∧ t = py "Invalid value for 48-bit word!" := by
  obtain ⟨mem, vs, c, rfl, hl, _⟩ := bankReach_rep hm
  rw [MemoryBank.set_mk]
  have ha : (0 ≤ a ∧ a.toNat < vs.length) ↔ ¬ (a < 0 ∨ a > 2047) := by omega
  have hv : Fits 48 v ↔ ¬ (v < 0 ∨ v > 2 ^ MemoryBank.MEMORY_WIDTH - 1) := fits48 v
  have hb : (0 ≤ a ∧ a < 2048) ↔ ¬ (a < 0 ∨ a > 2047) := by omega
  have hs : py "Invalid value for " ++ pyStr MemoryBank.MEMORY_WIDTH ++ py "-bit word!" =
      py "Invalid value for 48-bit word!" := by decide
  simp only [ha, hv, hb]
  unfold MemoryBank.checkAddress MemoryBank.checkValue MemoryBank.checkAddressText
    MemoryBank.checkValueText
  rw [hs]
  by_cases h1 : a < 0 ∨ a > 2047 <;> by_cases h2 : v < 0 ∨ v > 2 ^ MemoryBank.MEMORY_WIDTH - 1 <;>
    simp [h1, h2, eq_comm]

theorem setListText_fits (l : List Int) (vs : List Int) (c : Nat) (v : Int) (hv : Fits 48 v) :
    (MemoryBank.mkBank vs c).setListText v l = none ∧ ((MemoryBank.mkBank vs c).setList v l).2 ≠ .error .valueError := by
  induction l generalizing vs with
  | nil => exact ⟨rfl, nofun⟩
  | cons a l ih =>
    simp only [MemoryBank.setListText, MemoryBank.setList]
    rw [MemoryBank.set_mk]
    by_cases h : 0 ≤ a ∧ a.toNat < vs.length
    · rw [if_pos h, if_pos hv]
      exact ih _
    · rw [if_neg h]
      refine ⟨?_, nofun⟩
      simp only
      rw [setText_mk, if_neg (fun g => h g.1)]

theorem setListText_bad (l : List Int) (vs : List Int) (c : Nat) (v : Int) (hv : ¬ Fits 48 v) :
    (MemoryBank.mkBank vs c).setListText v l = (match l with
      | [] => none
      | a :: _ => if 0 ≤ a ∧ a.toNat < vs.length then some Word.VALUE_TEXT else none) ∧
    (((MemoryBank.mkBank vs c).setList v l).2 = .error .valueError ↔
      ∃ a l', l = a :: l' ∧ 0 ≤ a ∧ a.toNat < vs.length) := by
  cases l with
  | nil => simp [MemoryBank.setListText, MemoryBank.setList]
  | cons a l =>
    simp only [MemoryBank.setListText, MemoryBank.setList]
    rw [MemoryBank.set_mk]
    by_cases h : 0 ≤ a ∧ a.toNat < vs.length
    · rw [if_pos h, if_neg hv]
      simp only
      rw [setText_mk, if_pos ⟨h, hv⟩, if_pos h]
      refine ⟨rfl, ⟨fun _ => ⟨a, l, rfl, h⟩, fun _ => trivial⟩⟩
    · rw [if_neg h]
      simp only
      rw [setText_mk, if_neg (fun g => h g.1), if_neg h]
      refine ⟨rfl, ⟨nofun, ?_⟩⟩
      rintro ⟨a', l', hl, h'⟩
      cases hl
      exact absurd h' h

/-- C184: the message of a refused write to a range of a bank. -/
theorem C184_memory_range {m : MemoryBank} (hm : BankReach m) (start stop : Option Int) (v : Int) :
    ((m.setSlice start stop v).2 = .error .valueError ↔ ∃ t, m.setSliceText start stop v = some t) ∧
    ∀ t, m.setSliceText start stop v = some t ↔
      ∃ s e, start = some s ∧ stop = some e ∧ s < e ∧ 0 ≤ s ∧ s < 2048 ∧ ¬ Fits 48 v ∧
        t = py "Invalid value for 48-bit word!" := by
  obtain ⟨mem, vs, c, rfl, hl, _⟩ := bankReach_rep hm
  match start, stop with
  | none, e => cases e <;> simp [MemoryBank.setSlice, MemoryBank.setSliceText, needInt]
  | some s, none => simp [MemoryBank.setSlice, MemoryBank.setSliceText, needInt]
  | some s, some e =>
    simp only [MemoryBank.setSlice, MemoryBank.setSliceText, needInt]
    by_cases hv : Fits 48 v
    · obtain ⟨h1, h2⟩ := setListText_fits (pyRange s e) vs c v hv
      rw [h1]
      refine ⟨⟨fun g => absurd g h2, nofun⟩, fun t => ⟨nofun, ?_⟩⟩
      rintro ⟨_, _, _, _, _, _, _, g, _⟩
      exact absurd hv g
    · obtain ⟨h1, h2⟩ := setListText_bad (pyRange s e) vs c v hv
      rw [h1, h2, pyRange_cons]
      by_cases hse : s < e
      · rw [if_pos hse]
        simp only
        by_cases hs : 0 ≤ s ∧ s.toNat < vs.length
        · rw [if_pos hs]
          refine ⟨⟨fun _ => ⟨_, rfl⟩, fun _ => ⟨s, _, rfl, hs⟩⟩, fun t => ?_⟩
          constructor
          · rintro ⟨⟩; exact ⟨s, e, rfl, rfl, hse, hs.1, by omega, hv, rfl⟩
          · rintro ⟨_, _, _, _, _, _, _, _, rfl⟩; rfl
        · rw [if_neg hs]
          refine ⟨⟨?_, nofun⟩, fun t => ⟨nofun, ?_⟩⟩
          · rintro ⟨a, l, hl', ha⟩; cases hl'; exact absurd ha hs
          · rintro ⟨s', e', hs', he', _, g1, g2, _⟩
            cases hs'; cases he'
            omega
      · rw [if_neg hse]
        refine ⟨⟨?_, nofun⟩, fun t => ⟨nofun, ?_⟩⟩
        · rintro ⟨a, l, hl', _⟩; cases hl'
        · rintro ⟨s', e', hs', he', g, _⟩
          cases hs'; cases he'
          exact absurd g hse

example : Word.initText (2 ^ 48) = some (py "Invalid value for 48-bit word!") ∧
    InstructionWord.initText 4096 4096 0 (-1) = none ∧
    InstructionWord.initText 0 4097 0 0 =
      some (py "Value is greater than allowed for 12-bit field!") ∧
    ∃ m, BankReach m := by
  refine ⟨?_, ?_, ?_, MemoryBank.mkBank (List.replicate 2048 0) 0, MemoryBank.mkBank (List.replicate 2048 0) 0, [],
    MemoryBank.init_eq, rfl⟩ <;> decide +kernel

end H800
