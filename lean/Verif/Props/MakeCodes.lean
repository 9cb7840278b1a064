import Verif.Props.Instruction

/-!
Property C229: the functions `make_masked_opcode`, `make_unmasked_opcode`, `make_peripheral_opcode` and
`make_print_opcode` (instructions.py 417-436) given any mnemonic and any ints.
-/

namespace H800

open Spec

/-- The function for a form, given the mnemonic and the operands; there is none for the simulator. -/
def makeCode (m : Str) : Form → Option (Py Int)
  | .masked s k => some (makeMasked m s k)
  | .unmasked s a b c => some (makeUnmasked m s a b c)
  | .peripheral p => some (makePeripheral m p)
  | .print s a b c => some (makePrint m s a b c)
  | .simulator _ => none

/-- C229 as stated: the functions give the code of each instruction of the table, and raise for anything
else. -/
def C229_statement : Prop := ∀ (m : Str) (f : Form) (r : Py Int), makeCode m f = some r →
  (TableInstr m f → r = tableCode m f) ∧ (¬ TableInstr m f → ∃ e, r = .error e)

/-- C229: the functions give the code of each instruction of the table. -/
theorem C229_codes_partial (m : Str) (f : Form) (r : Py Int) (h : makeCode m f = some r)
    (ht : TableInstr m f) : r = tableCode m f := by
  obtain ⟨o, ho, hs, hf⟩ := ht
  rw [tableCode_eq ho hs hf]
  obtain ⟨-, -, hty⟩ := row_ok ho
  simp only at hty
  cases f with
  | masked s k =>
    cases h
    have h7 : o.b7 = some 1 := by rcases hty with h | h | h | h | h <;> simp_all [Form.Suits]
    unfold makeMasked dgetE
    rw [ho]
    simp only [py_bind_ok, py_pure, h7, BitField.needInt, Form.code, maskedCode, Option.getD_some]
    congr 1; ring
  | unmasked s a b c =>
    cases h
    have h23 : o.b23.isSome := by rcases hty with h | h | h | h | h <;> simp_all [Form.Suits]
    obtain ⟨v, hv⟩ := Option.isSome_iff_exists.1 h23
    unfold makeUnmasked dgetE
    rw [ho]
    simp only [py_bind_ok, py_pure, hv, BitField.needInt, Form.code, unmaskedCode, Option.getD_some]
    congr 1; ring
  | peripheral p =>
    cases h
    have h7 : o.b7 = some 1 := by rcases hty with h | h | h | h | h <;> simp_all [Form.Suits]
    unfold makePeripheral dgetE
    rw [ho]
    simp only [py_bind_ok, py_pure, h7, BitField.needInt, Form.code, peripheralCode, Option.getD_some]
    congr 1; ring
  | print s a b c =>
    cases h
    have h7 : o.b7 = some 1 := by rcases hty with h | h | h | h | h <;> simp_all [Form.Suits]
    unfold makePrint dgetE
    rw [ho]
    simp only [py_bind_ok, py_pure, h7, BitField.needInt, Form.code, printCode, Option.getD_some]
    congr 1; ring
  | simulator s => cases h

/-- C229 is false: no operand is checked, so that a mask of 32 gives the code with the other sequence bit;
an unmasked opcode is taken for a masked one; and a negative address gives a negative number. -/
theorem C229_refuted : ¬ C229_statement ∧
    makeMasked (py "BA") 0 32 = .ok 0o4051 ∧ makeMasked (py "BA") 1 0 = .ok 0o4051 ∧
    makeMasked (py "BM") 0 0 = makeUnmasked (py "BM") 0 0 0 0 ∧
    makePeripheral (py "RF") (-1) = .ok (-6) := by
  refine ⟨fun h => ?_, by decide +kernel, by decide +kernel, by decide +kernel, by decide +kernel⟩
  obtain ⟨e, he⟩ := (h (py "BA") (.masked 0 32) _ rfl).2 (by
    rintro ⟨o, -, -, -, hm⟩
    exact absurd hm.2 (by decide))
  have : makeMasked (py "BA") 0 32 = .ok 0o4051 := by decide +kernel
  rw [this] at he
  cases he

/-- C229: they raise KeyError exactly for what is no mnemonic of the table, and TypeError exactly for a
mnemonic without the bits that they ask for: the simulator instruction, and for the unmasked code also the
peripheral and print instructions. -/
theorem C229_raises_partial (m : Str) (f : Form) (r : Py Int) (h : makeCode m f = some r) :
    (dget OPCODES m = none → r = .error .keyError) ∧
    ∀ o, dget OPCODES m = some o →
      ((o.type = py "simulator" ∨
        (∃ s a b c, f = .unmasked s a b c) ∧ (o.type = py "peripheral" ∨ o.type = py "print")) →
        r = .error .typeError) ∧
      (¬ (o.type = py "simulator" ∨
        (∃ s a b c, f = .unmasked s a b c) ∧ (o.type = py "peripheral" ∨ o.type = py "print")) →
        r = .ok (f.code (o.b23.getD 0) (o.b7.getD 0) o.op)) := by
  constructor
  · intro hn
    cases f <;> cases h <;> simp only [makeMasked, makeUnmasked, makePeripheral, makePrint, dgetE, hn] <;> rfl
  · intro o ho
    obtain ⟨-, -, hty⟩ := row_ok ho
    simp only at hty
    have e1 : py "maskable" ≠ py "simulator" := by decide
    have e2 : py "unmasked" ≠ py "simulator" := by decide
    have e3 : py "peripheral" ≠ py "simulator" := by decide
    have e4 : py "print" ≠ py "simulator" := by decide
    have e5 : py "maskable" ≠ py "peripheral" := by decide
    have e6 : py "maskable" ≠ py "print" := by decide
    have e7 : py "unmasked" ≠ py "peripheral" := by decide
    have e8 : py "unmasked" ≠ py "print" := by decide
    have h7 : (o.type = py "simulator" → o.b7 = none) ∧ (o.type ≠ py "simulator" → ∃ q, o.b7 = some q) := by
      rcases hty with ⟨t, -, q⟩ | ⟨t, -, q⟩ | ⟨t, -, q⟩ | ⟨t, -, q⟩ | ⟨t, -, q, -⟩ <;> rw [t, q] <;>
        simp_all
    have h23 : (o.type = py "simulator" ∨ o.type = py "peripheral" ∨ o.type = py "print" → o.b23 = none) ∧
        (¬ (o.type = py "simulator" ∨ o.type = py "peripheral" ∨ o.type = py "print") →
          ∃ q, o.b23 = some q) := by
      rcases hty with ⟨t, q, -⟩ | ⟨t, q, -⟩ | ⟨t, q, -⟩ | ⟨t, q, -⟩ | ⟨t, q, -, -⟩ <;> rw [t] <;>
        first
        | exact ⟨fun _ => q, fun hc => absurd (by simp) hc⟩
        | exact ⟨fun hc => by rcases hc with hc | hc | hc <;> simp_all,
            fun _ => Option.isSome_iff_exists.1 q⟩
    cases f with
    | simulator s => cases h
    | unmasked s a b c =>
      cases h
      constructor
      · rintro (ht | ⟨-, ht⟩)
        · simp only [makeUnmasked, dgetE, ho, py_bind_ok, h23.1 (Or.inl ht), BitField.needInt]; rfl
        · simp only [makeUnmasked, dgetE, ho, py_bind_ok, h23.1 (Or.inr ht), BitField.needInt]; rfl
      · intro hc
        obtain ⟨q, hq⟩ := h23.2 (fun ht => hc (by
          rcases ht with ht | ht
          · exact Or.inl ht
          · exact Or.inr ⟨⟨s, a, b, c, rfl⟩, ht⟩))
        simp only [makeUnmasked, dgetE, ho, py_bind_ok, py_pure, hq, BitField.needInt, Form.code,
          unmaskedCode, Option.getD_some]
        congr 1; ring
    | masked s k =>
      cases h
      constructor
      · rintro (ht | ⟨⟨s, a, b, c, hf⟩, -⟩)
        · simp only [makeMasked, dgetE, ho, py_bind_ok, h7.1 ht, BitField.needInt]; rfl
        · cases hf
      · intro hc
        obtain ⟨q, hq⟩ := h7.2 (fun ht => hc (Or.inl ht))
        simp only [makeMasked, dgetE, ho, py_bind_ok, py_pure, hq, BitField.needInt, Form.code,
          maskedCode, Option.getD_some]
        congr 1; ring
    | peripheral p =>
      cases h
      constructor
      · rintro (ht | ⟨⟨s, a, b, c, hf⟩, -⟩)
        · simp only [makePeripheral, dgetE, ho, py_bind_ok, h7.1 ht, BitField.needInt]; rfl
        · cases hf
      · intro hc
        obtain ⟨q, hq⟩ := h7.2 (fun ht => hc (Or.inl ht))
        simp only [makePeripheral, dgetE, ho, py_bind_ok, py_pure, hq, BitField.needInt, Form.code,
          peripheralCode, Option.getD_some]
        congr 1; ring
    | print s a b c =>
      cases h
      constructor
      · rintro (ht | ⟨⟨s, a, b, c, hf⟩, -⟩)
        · simp only [makePrint, dgetE, ho, py_bind_ok, h7.1 ht, BitField.needInt]; rfl
        · cases hf
      · intro hc
        obtain ⟨q, hq⟩ := h7.2 (fun ht => hc (Or.inl ht))
        simp only [makePrint, dgetE, ho, py_bind_ok, py_pure, hq, BitField.needInt, Form.code,
          printCode, Option.getD_some]
        congr 1; ring

/-- C229: whatever ints are given as operands, the low six bits of the number are those of the mnemonic.
The number is a code of the mnemonic in this form exactly if the operands, put in their places and added,
are operands of this form: a masked code for `32 * sequence + mask` from 0 to 63, an unmasked or a print code
for `32 * sequence + 4 * a + 2 * b + c` from 0 to 7 or from 32 to 39, a peripheral code only for the
addresses. -/
theorem C229_operands_partial (m : Str) (o : Opcode) (ho : dget OPCODES m = some o) :
    (o.type = py "maskable" → ∀ s k, ∃ v, makeMasked m s k = .ok v ∧ v % 64 = 32 + o.op ∧
      ((∃ s' k', TableInstr m (.masked s' k') ∧ makeMasked m s' k' = .ok v) ↔
        0 ≤ 32 * s + k ∧ 32 * s + k < 64) ∧
      (Fits 12 v ↔ 0 ≤ 32 * s + k ∧ 32 * s + k < 64)) ∧
    (o.type = py "maskable" ∨ o.type = py "unmasked" → ∀ s a b c, ∃ v, makeUnmasked m s a b c = .ok v ∧
      v % 64 = o.op ∧
      ((∃ s' a' b' c', TableInstr m (.unmasked s' a' b' c') ∧ makeUnmasked m s' a' b' c' = .ok v) ↔
        0 ≤ 32 * s + 4 * a + 2 * b + c ∧ 32 * s + 4 * a + 2 * b + c < 8 ∨
        32 ≤ 32 * s + 4 * a + 2 * b + c ∧ 32 * s + 4 * a + 2 * b + c < 40)) ∧
    (o.type = py "peripheral" → ∀ p, ∃ v, makePeripheral m p = .ok v ∧ v % 64 = 32 + o.op ∧
      ((∃ p', TableInstr m (.peripheral p') ∧ makePeripheral m p' = .ok v) ↔ Fits 6 p) ∧
      (Fits 12 v ↔ Fits 6 p)) ∧
    (o.type = py "print" → ∀ s a b c, ∃ v, makePrint m s a b c = .ok v ∧ v % 64 = 32 + o.op ∧
      ((∃ s' a' b' c', TableInstr m (.print s' a' b' c') ∧ makePrint m s' a' b' c' = .ok v) ↔
        0 ≤ 32 * s + 4 * a + 2 * b + c ∧ 32 * s + 4 * a + 2 * b + c < 8 ∨
        32 ≤ 32 * s + 4 * a + 2 * b + c ∧ 32 * s + 4 * a + 2 * b + c < 40)) := by
  obtain ⟨-, hleg, hty⟩ := row_ok ho
  simp only at hleg hty
  have hop : 0 ≤ o.op ∧ o.op < 32 := by
    have := hleg.2.2
    unfold Fits at this
    omega
  have hb : ∀ t : Int, (0 ≤ t ∧ t < 8 ∨ 32 ≤ t ∧ t < 40) → ∃ s a b c, Bit s ∧ Bit a ∧ Bit b ∧ Bit c ∧
      32 * s + 4 * a + 2 * b + c = t := by
    intro t ht
    refine ⟨t / 32, t % 8 / 4, t % 4 / 2, t % 2, ?_, ?_, ?_, ?_, ?_⟩ <;> (try unfold Bit) <;> omega
  have eq {f : Form} {r : Py Int} (h : makeCode m f = some r) := (C229_raises_partial m f r h).2 o ho
  refine ⟨fun ht s k => ?_, fun ht s a b c => ?_, fun ht p => ?_, fun ht s a b c => ?_⟩
  · have h7 : o.b7 = some 1 := by
      rcases hty with h | h | h | h | h <;> first | exact h.2.2 | (rw [ht] at h; exact absurd h.1 (by decide))
    have hm : ∀ s k, makeMasked m s k = .ok (maskedCode s k 1 o.op) := by
      intro s k
      have := (eq (f := .masked s k) rfl).2 (by
        rintro (h | ⟨⟨s, a, b, c, hf⟩, -⟩)
        · rw [ht] at h; exact absurd h (by decide)
        · cases hf)
      rw [this, h7]; rfl
    refine ⟨_, hm s k, ?_, ?_, ?_⟩
    · unfold maskedCode; omega
    · constructor
      · rintro ⟨s', k', ⟨-, -, -, hs, hk⟩, he⟩
        rw [hm, Except.ok.injEq] at he
        unfold maskedCode at he
        unfold Bit at hs
        unfold Fits at hk
        omega
      · intro h
        refine ⟨(32 * s + k) / 32, (32 * s + k) % 32, ⟨o, ho, ht, ?_, ?_⟩, ?_⟩
        · unfold Bit; omega
        · unfold Fits; omega
        · rw [hm]
          unfold maskedCode
          congr 1; omega
    · unfold Fits maskedCode; omega
  · have h23 : ∃ q, o.b23 = some q := by
      rw [← Option.isSome_iff_exists]
      rcases hty with h | h | h | h | h <;> first | exact h.2.1 |
        (rcases ht with ht | ht <;> rw [ht] at h <;> exact absurd h.1 (by decide))
    obtain ⟨q, hq⟩ := h23
    have hm : ∀ s a b c, makeUnmasked m s a b c = .ok (unmaskedCode s q a b c o.op) := by
      intro s a b c
      have := (eq (f := .unmasked s a b c) rfl).2 (by
        rintro (h | ⟨-, h | h⟩) <;> rcases ht with ht | ht <;> rw [ht] at h <;>
          exact absurd h (by decide))
      rw [this, hq]; rfl
    refine ⟨_, hm s a b c, ?_, ?_⟩
    · unfold unmaskedCode; omega
    · constructor
      · rintro ⟨s', a', b', c', ⟨-, -, -, hs, ha, hb, hc⟩, he⟩
        rw [hm, Except.ok.injEq] at he
        unfold unmaskedCode at he
        unfold Bit at hs ha hb hc
        omega
      · intro h
        obtain ⟨s', a', b', c', h1, h2, h3, h4, he⟩ := hb _ h
        refine ⟨s', a', b', c', ⟨o, ho, ht, h1, h2, h3, h4⟩, ?_⟩
        rw [hm]
        unfold unmaskedCode
        congr 1; omega
  · have h7 : o.b7 = some 1 := by
      rcases hty with h | h | h | h | h <;> first | exact h.2.2 | (rw [ht] at h; exact absurd h.1 (by decide))
    have hm : ∀ p, makePeripheral m p = .ok (peripheralCode p 1 o.op) := by
      intro p
      have := (eq (f := .peripheral p) rfl).2 (by
        rintro (h | ⟨⟨s, a, b, c, hf⟩, -⟩)
        · rw [ht] at h; exact absurd h (by decide)
        · cases hf)
      rw [this, h7]; rfl
    refine ⟨_, hm p, ?_, ?_, ?_⟩
    · unfold peripheralCode; omega
    · constructor
      · rintro ⟨p', ⟨-, -, -, hp⟩, he⟩
        rw [hm, Except.ok.injEq] at he
        unfold peripheralCode at he
        have : p' = p := by omega
        rwa [← this]
      · intro h
        exact ⟨p, ⟨o, ho, ht, h⟩, hm p⟩
    · unfold Fits peripheralCode; omega
  · have h7 : o.b7 = some 1 := by
      rcases hty with h | h | h | h | h <;> first | exact h.2.2 | (rw [ht] at h; exact absurd h.1 (by decide))
    have hm : ∀ s a b c, makePrint m s a b c = .ok (printCode s a b c 1 o.op) := by
      intro s a b c
      have := (eq (f := .print s a b c) rfl).2 (by
        rintro (h | ⟨⟨s, a, b, c, hf⟩, -⟩)
        · rw [ht] at h; exact absurd h (by decide)
        · cases hf)
      rw [this, h7]; rfl
    refine ⟨_, hm s a b c, ?_, ?_⟩
    · unfold printCode; omega
    · constructor
      · rintro ⟨s', a', b', c', ⟨-, -, -, hs, ha, hb, hc⟩, he⟩
        rw [hm, Except.ok.injEq] at he
        unfold printCode at he
        unfold Bit at hs ha hb hc
        omega
      · intro h
        obtain ⟨s', a', b', c', h1, h2, h3, h4, he⟩ := hb _ h
        refine ⟨s', a', b', c', ⟨o, ho, ht, h1, h2, h3, h4⟩, ?_⟩
        rw [hm]
        unfold printCode
        congr 1; omega

/-! Cases: an operand that is carried over, one that changes the mnemonic, a mnemonic of another type, no
mnemonic. -/

example : makeUnmasked (py "BM") 0 0 2 0 = .ok 0o0413 ∧ makeUnmasked (py "BM") 0 1 0 0 = .ok 0o0413 ∧
    makeUnmasked (py "BM") 0 4 0 0 = makeUnmasked (py "BT") 0 0 0 0 ∧
    makeUnmasked (py "RF") 0 0 0 0 = .error .typeError ∧ makeMasked (py "S") 0 0 = .error .typeError ∧
    makePrint (py "XY") 0 0 0 0 = .error .keyError := by
  refine ⟨?_, ?_, ?_, ?_, ?_, ?_⟩ <;> decide +kernel

end H800
