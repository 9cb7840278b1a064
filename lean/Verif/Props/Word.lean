import Verif.Lemmas.Word

/-!
Properties C15-C19: words and instruction words.

`IsWord w` says that the word object has the shape every `Word` has (48 bits, MSB_1, MSB-left); it
holds of every object the constructors return and is preserved by every operation, so it is not a
restriction. The stored value is arbitrary unless `Fits 48` is assumed.
-/

namespace H800

open Spec

/-- The shape of a `Word` object. -/
def IsWord (w : Word) : Prop :=
  w.data.width = 48 ∧ w.data.numbering = .msb1 ∧ w.data.order = .msbLeft

theorem isWord_eq {w : Word} (h : IsWord w) : w = mkWord w.value := by
  obtain ⟨⟨W, v, n, o⟩⟩ := w
  obtain ⟨h1, h2, h3⟩ := h
  simp only at h1 h2 h3
  subst h1 h2 h3; rfl

/-- C15: construction and whole-word assignment. -/
theorem C15_word_value :
    (∀ v, Fits 48 v → ∃ w, Word.init v = .ok w ∧ IsWord w ∧ w.value = v) ∧
    (∀ v, ¬ Fits 48 v → Word.init v = .error .valueError) ∧
    (∀ w v, IsWord w → Fits 48 v →
      ∃ w', w.setValue v = (w', .ok ()) ∧ IsWord w' ∧ w'.value = v) ∧
    (∀ w v, IsWord w → ¬ Fits 48 v → w.setValue v = (w, .error .valueError)) := by
  refine ⟨?_, ?_, ?_, ?_⟩
  · intro v h; rw [word_init, if_pos h]; exact ⟨_, rfl, ⟨rfl, rfl, rfl⟩, rfl⟩
  · intro v h; rw [word_init, if_neg h]
  · intro w v hw h
    rw [isWord_eq hw, word_setValue, if_pos h]; exact ⟨_, rfl, ⟨rfl, rfl, rfl⟩, rfl⟩
  · intro w v hw h
    rw [isWord_eq hw, word_setValue, if_neg h]

example : Fits 48 0o7777777777777777 ∧ ¬ Fits 48 (2 ^ 48) ∧
    Word.init 0o7777777777777777 = .ok ⟨⟨48, 0o7777777777777777, .msb1, .msbLeft⟩⟩ := by decide

theorem iword_init (c a b d : Int) (hc : Fits 12 c) (ha : Fits 12 a) (hb : Fits 12 b)
    (hd : Fits 12 d) :
    InstructionWord.init c a b d = .ok (mkWord (c * 2 ^ 36 + a * 2 ^ 24 + b * 2 ^ 12 + d)) := by
  have step : ∀ (v x : Int) (f : IField), Fits 48 v → Fits 12 x →
      (mkWord v).data.assign f.key x = .ok (mkWord (putField v f.lo 12 x)).data := by
    intro v x f hv hx
    have := iword_set v x f hv hx
    unfold InstructionWord.set at this
    unfold BitField.assign
    generalize (mkWord v).data.setitem f.key x = p at this
    obtain ⟨b', r⟩ := p
    simp only [Prod.mk.injEq] at this
    obtain ⟨h1, h2⟩ := this
    subst h2
    simp only
    rw [← h1]
  unfold InstructionWord.init
  rw [word_init, if_pos (by decide)]
  have h0 : Fits 48 0 := by decide
  have h1 := putField_fits 0 c .command h0 hc
  have h2 := putField_fits _ a .a h1 ha
  have h3 := putField_fits _ b .b h2 hb
  simp only [py_bind_ok, step 0 c .command h0 hc, step _ a .a h1 ha, step _ b .b h2 hb,
    step _ d .c h3 hd, py_pure]
  congr 2
  unfold Fits at *
  simp only [putField, field, IField.lo]
  unfold mkWord
  congr 2
  norm_num at *
  omega

/-- C16: packing of the four fields and reading them back. -/
theorem C16_instructionWord_packs (c a b d : Int) (hc : Fits 12 c) (ha : Fits 12 a)
    (hb : Fits 12 b) (hd : Fits 12 d) :
    ∃ w, InstructionWord.init c a b d = .ok w ∧ IsWord w ∧
      w.value = c * 2 ^ 36 + a * 2 ^ 24 + b * 2 ^ 12 + d ∧
      InstructionWord.get w .command = .ok c ∧ InstructionWord.get w .a = .ok a ∧
      InstructionWord.get w .b = .ok b ∧ InstructionWord.get w .c = .ok d := by
  refine ⟨_, iword_init c a b d hc ha hb hd, ⟨rfl, rfl, rfl⟩, rfl, ?_⟩
  simp only [iword_get]
  unfold Fits field at *
  simp only [IField.lo, Except.ok.injEq]
  norm_num at *
  refine ⟨?_, ?_, ?_, ?_⟩ <;> omega

example : ∃ w, InstructionWord.init 0o1234 0o4321 0o7777 1 = .ok w ∧
    w.value = 0o1234432177770001 := ⟨_, rfl, by decide⟩

/-- C17, one step: a field setter changes its field only. -/
theorem C17_field_set (w : Word) (f : IField) (x : Int) (hw : IsWord w) (hv : Fits 48 w.value)
    (hx : Fits 12 x) :
    ∃ w', InstructionWord.set w f x = (w', .ok ()) ∧ IsWord w' ∧ Fits 48 w'.value ∧
      InstructionWord.get w' f = .ok x ∧
      ∀ g, g ≠ f → InstructionWord.get w' g = InstructionWord.get w g := by
  rw [isWord_eq hw]
  refine ⟨_, iword_set _ x f hv hx, ⟨rfl, rfl, rfl⟩, putField_fits _ x f hv hx, ?_, ?_⟩
  · rw [iword_get, field_putField _ x f f hx, if_pos rfl]
  · intro g hg
    rw [iword_get, iword_get, field_putField _ x f g hx, if_neg hg]

/-- The abstract instruction word: four independent fields. A field write above 4096 and a whole-word
write outside 48 bits are rejected; a whole-word write splits the word. -/
def iwSpec (st : IField → Int) : IwOp → IField → Int
  | .field f x => fun g => if x ≤ 4095 ∧ g = f then x else st g
  | .value v => fun g =>
    if 0 ≤ v ∧ v < 2 ^ 48 then
      (match g with
       | .command => v / 2 ^ 36
       | .a => v / 2 ^ 24 % 2 ^ 12
       | .b => v / 2 ^ 12 % 2 ^ 12
       | .c => v % 2 ^ 12)
    else st g

/-- C17, histories: each field property returns the last value set to it, after any history of field
and whole-word writes (accepted or rejected) on a fresh word, and the word stays within 48 bits.
Field values are non-negative and not exactly 4096 (see C19). -/
theorem C17_history (ops : List IwOp)
    (hops : ∀ op ∈ ops, ∀ f x, op = .field f x → 0 ≤ x ∧ x ≠ 4096) :
    ∃ w0, InstructionWord.init 0 0 0 0 = .ok w0 ∧
      let w := ops.foldl IwOp.run w0
      Fits 48 w.value ∧
      ∀ f, InstructionWord.get w f = .ok (ops.foldl iwSpec (fun _ => 0) f) := by
  have key : ∀ (ops : List IwOp) (v : Int) (st : IField → Int), Fits 48 v →
      (∀ f, field v f.lo 12 = st f) →
      (∀ op ∈ ops, ∀ f x, op = .field f x → 0 ≤ x ∧ x ≠ 4096) →
      ∃ v', ops.foldl IwOp.run (mkWord v) = mkWord v' ∧ Fits 48 v' ∧
        ∀ f, field v' f.lo 12 = ops.foldl iwSpec st f := by
    intro ops
    induction ops with
    | nil => intro v st hv hst _; exact ⟨v, rfl, hv, hst⟩
    | cons op ops ih =>
      intro v st hv hst hops
      simp only [List.foldl_cons]
      have hrest : ∀ o ∈ ops, ∀ f x, o = .field f x → 0 ≤ x ∧ x ≠ 4096 :=
        fun o ho => hops o (by simp [ho])
      cases op with
      | field f x =>
        have hx := hops (.field f x) (by simp) f x rfl
        by_cases hb : x ≤ 4095
        · have hxf : Fits 12 x := by unfold Fits; norm_num; omega
          have : IwOp.run (mkWord v) (.field f x) = mkWord (putField v f.lo 12 x) := by
            simp only [IwOp.run, iword_set v x f hv hxf]
          rw [this]
          refine ih _ _ (putField_fits v x f hv hxf) ?_ hrest
          intro g
          rw [field_putField v x f g hxf]
          simp only [iwSpec, hb, true_and]
          split <;> simp [hst]
        · have : IwOp.run (mkWord v) (.field f x) = mkWord v := by
            simp only [IwOp.run, iword_set_large v x f (by omega)]
          rw [this]
          refine ih _ _ hv ?_ hrest
          intro g; simp only [iwSpec, hb, false_and, if_false]; exact hst g
      | value u =>
        have hrun : IwOp.run (mkWord v) (.value u) = if Fits 48 u then mkWord u else mkWord v := by
          simp only [IwOp.run, word_setValue]; split <;> rfl
        rw [hrun]
        by_cases hu : Fits 48 u
        · rw [if_pos hu]
          refine ih _ _ hu ?_ hrest
          intro g
          have hu' : 0 ≤ u ∧ u < 2 ^ 48 := hu
          simp only [iwSpec, hu', and_self, if_true]
          cases g <;> simp only [field, IField.lo] <;> ((try norm_num at *); try omega)
        · rw [if_neg hu]
          refine ih _ _ hv ?_ hrest
          intro g
          have hu' : ¬ (0 ≤ u ∧ u < 2 ^ 48) := hu
          simp only [iwSpec, hu', if_false]; exact hst g
  have hi := iword_init 0 0 0 0 (by decide) (by decide) (by decide) (by decide)
  norm_num at hi
  obtain ⟨v', h1, h2, h3⟩ := key ops 0 (fun _ => 0) (by decide)
    (by intro f; cases f <;> decide) hops
  refine ⟨mkWord 0, hi, ?_⟩
  simp only [h1]
  exact ⟨h2, fun f => by rw [iword_get, h3]⟩

example : let ops := [IwOp.field .a 5, .field .command 4095, .value (-1), .field .a 7, .field .b 5000]
    (∀ op ∈ ops, ∀ f x, op = .field f x → 0 ≤ x ∧ x ≠ 4096) ∧
    ops.foldl iwSpec (fun _ => 0) .a = 7 ∧ ops.foldl iwSpec (fun _ => 0) .command = 4095 ∧
    ops.foldl iwSpec (fun _ => 0) .b = 0 := by
  refine ⟨?_, by decide, by decide, by decide⟩
  intro op h f x hx
  subst hx
  simp only [List.mem_cons, IwOp.field.injEq, reduceCtorEq, List.not_mem_nil, or_false,
    false_or] at h
  omega

/-- C18: splitting any 48-bit word and rebuilding it gives the word back. -/
theorem C18_split_unique (v : Int) (hv : Fits 48 v) :
    ∃ w c a b d, Word.init v = .ok w ∧
      InstructionWord.get w .command = .ok c ∧ InstructionWord.get w .a = .ok a ∧
      InstructionWord.get w .b = .ok b ∧ InstructionWord.get w .c = .ok d ∧
      Fits 12 c ∧ Fits 12 a ∧ Fits 12 b ∧ Fits 12 d ∧
      ∃ w', InstructionWord.init c a b d = .ok w' ∧ w'.value = v := by
  refine ⟨mkWord v, _, _, _, _, by rw [word_init, if_pos hv], iword_get v _, iword_get v _,
    iword_get v _, iword_get v _, field_fits _ _ _, field_fits _ _ _, field_fits _ _ _,
    field_fits _ _ _, _, iword_init _ _ _ _ (field_fits _ _ _) (field_fits _ _ _)
      (field_fits _ _ _) (field_fits _ _ _), ?_⟩
  unfold mkWord Word.value field Fits at *
  simp only [IField.lo]
  norm_num at *
  omega

example : Fits 48 123456789012345 := by decide

/-- C19, the property as stated. -/
def C19_statement : Prop :=
  (∀ c a b d, ¬ (Fits 12 c ∧ Fits 12 a ∧ Fits 12 b ∧ Fits 12 d) →
    InstructionWord.init c a b d = .error .valueError) ∧
  (∀ w f x, IsWord w → ¬ Fits 12 x → InstructionWord.set w f x = (w, .error .valueError))

/-- C19 is false: 4096 is accepted as an A address, reads back as 0 and changes the command code
from 0 to 1; 4096 as a command makes the word overflow 48 bits; and the constructor silently drops
a command of 4096. -/
theorem C19_refuted : ¬ C19_statement ∧
    (∃ w w', InstructionWord.init 0 0 0 0 = .ok w ∧
      InstructionWord.set w .a 4096 = (w', .ok ()) ∧ InstructionWord.get w' .a = .ok 0 ∧
      InstructionWord.get w' .command = .ok 1) ∧
    (∃ w w', InstructionWord.init 0 0 0 0 = .ok w ∧
      InstructionWord.set w .command 4096 = (w', .ok ()) ∧ ¬ Fits 48 w'.value) ∧
    (∃ w, InstructionWord.init 4096 0 0 0 = .ok w ∧ w.value = 0) := by
  refine ⟨?_, ⟨mkWord 0, mkWord (2 ^ 36), by decide, by decide, by decide, by decide⟩,
    ⟨mkWord 0, mkWord (2 ^ 48), by decide, by decide, by decide⟩,
    ⟨mkWord 0, by decide, by decide⟩⟩
  intro h
  have := h.1 4096 0 0 0 (by decide)
  revert this; decide

/-- C19, what holds: field values above 4096 are rejected by the setters, leaving the word alone;
and (C17) values 0..4095 never disturb another field. For 4096 itself and negative values see
`C19_set_exact_partial` in Props/Overflow. -/
theorem C19_large_rejected_partial (w : Word) (f : IField) (x : Int) (hw : IsWord w)
    (hx : x > 4096) : InstructionWord.set w f x = (w, .error .valueError) := by
  rw [isWord_eq hw]; exact iword_set_large _ x f hx

example : InstructionWord.set ⟨⟨48, 7, .msb1, .msbLeft⟩⟩ .b 4097
    = (⟨⟨48, 7, .msb1, .msbLeft⟩⟩, .error .valueError) := by decide

end H800
