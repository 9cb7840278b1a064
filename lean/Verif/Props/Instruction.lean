import Verif.Lemmas.Opcodes
import Verif.Props.Word

/-!
Properties C37-C45: machine instructions, constants and pseudo-instructions.
-/

namespace H800

open Spec

/-- C37, any opcode record: a maskable opcode with a sequence bit and a mask. -/
theorem C37_masked (o : Opcode) (q s m : Int) (ht : o.type = py "maskable") (h7 : o.b7 = some q)
    (hr : LegalRecord o.b23 o.b7 o.op) (hs : Bit s) (hm : Fits 5 m) :
    ∃ i, Instruction.init o (some s) (some m) none none none none = .ok i ∧
      i.value = maskedCode s m q o.op := by
  rw [init_exact, if_pos]
  · refine ⟨_, rfl, ?_⟩
    simp only [Instruction.value, mkI, topBits, bit7Of, Instruction.usesBit7, ht, h7, maskedCode,
      Option.getD_some, Option.isSome_some]
    simp
    ring
  · refine ⟨⟨?_, optIs_none _, optIs_none _, optIs_none _, ?_, optIs_none _⟩, hr⟩
    · rw [optIs_some]; exact hs
    · rw [optIs_some]; exact ⟨ht, rfl, rfl, rfl, rfl, hm⟩

/-- C37, the table: every maskable class of the module builds the code `make_masked_opcode` computes
for its mnemonic, which is the masked layout with bit 7 set. -/
theorem C37_masked_classes (cls m : Str) (hc : dget CLASSES cls = some (m, .maskable)) (s k : Int)
    (hs : Bit s) (hk : Fits 5 k) :
    ∃ o i, dget OPCODES m = some o ∧ construct cls { sequence := some s, mask := some k } = .ok i ∧
      i.value = maskedCode s k 1 o.op ∧ makeMasked m s k = .ok i.value := by
  have hrow : ∀ p ∈ CLASSES, p.2.2 = .maskable →
      (dget OPCODES p.2.1).any (fun o => o.type = py "maskable" ∧ o.b7 = some 1) := by
    decide +kernel
  have h := hrow _ (dget_mem hc) rfl
  simp only at h
  cases ho : dget OPCODES m with
  | none => rw [ho] at h; cases h
  | some o =>
    rw [ho] at h
    simp only [Option.any_some, decide_eq_true_eq] at h
    obtain ⟨i, hi, hv⟩ := C37_masked o 1 s k h.1 h.2 (row_ok ho).2.1 hs hk
    refine ⟨o, i, rfl, ?_, hv, ?_⟩
    · unfold construct
      rw [hc]
      simp only [Sig.accepts, Option.isNone_none, not_true_eq_false, if_false, dgetE, ho,
        py_bind_ok]
      exact hi
    · unfold makeMasked dgetE
      rw [ho, hv]
      simp only [py_bind_ok, h.2, BitField.needInt, py_pure, maskedCode]
      congr 1; ring

example : dget CLASSES (py "BinaryAdd") = some (py "BA", .maskable) ∧
    (construct (py "BinaryAdd") { sequence := some 1, mask := some 21 }).map (·.value)
      = .ok 0o6551 := by decide

/-- C38, any opcode record: a maskable or unmasked opcode with a sequence bit and three address
bits. -/
theorem C38_unmasked (o : Opcode) (h s a b c : Int)
    (ht : o.type = py "maskable" ∨ o.type = py "unmasked") (h23 : o.b23 = some h)
    (hr : LegalRecord o.b23 o.b7 o.op) (hs : Bit s) (ha : Bit a) (hb : Bit b) (hc : Bit c) :
    ∃ i, Instruction.init o (some s) none (some a) (some b) (some c) none = .ok i ∧
      i.value = unmaskedCode s h a b c o.op := by
  rw [init_exact, if_pos]
  · refine ⟨_, rfl, ?_⟩
    have hu : Instruction.usesBit7 o.type none = false := by
      rcases ht with ht | ht <;> rw [ht] <;> decide
    simp only [Instruction.value, mkI, topBits, bit7Of, hu, h23, unmaskedCode, Option.getD_some]
    simp
    ring
  · refine ⟨⟨?_, ?_, ?_, ?_, optIs_none _, optIs_none _⟩, hr⟩ <;> rw [optIs_some] <;> assumption

/-- C38, the table: every maskable, unmasked and scientific class builds the code
`make_unmasked_opcode` computes for its mnemonic. -/
theorem C38_unmasked_classes (cls m : Str) (sig : Sig)
    (hc : dget CLASSES cls = some (m, sig)) (hty : ∀ o, dget OPCODES m = some o → o.type ≠ py "print")
    (hsig : sig = .maskable ∨ sig = .unmasked ∨ sig = .scientific) (s a b c : Int)
    (hs : Bit s) (ha : Bit a) (hb : Bit b) (hcc : Bit c) :
    ∃ o h i, dget OPCODES m = some o ∧ o.b23 = some h ∧
      construct cls { sequence := some s, a := some a, b := some b, c := some c } = .ok i ∧
      i.value = unmaskedCode s h a b c o.op ∧ makeUnmasked m s a b c = .ok i.value := by
  have hrow : ∀ p ∈ CLASSES, (p.2.2 = .maskable ∨ p.2.2 = .unmasked ∨ p.2.2 = .scientific) →
      (dget OPCODES p.2.1).any (fun o => o.type = py "print" ∨
        ((o.type = py "maskable" ∨ o.type = py "unmasked") ∧ o.b23.isSome)) := by
    decide +kernel
  have h := hrow _ (dget_mem hc) hsig
  simp only at h
  cases ho : dget OPCODES m with
  | none => rw [ho] at h; cases h
  | some o =>
    rw [ho] at h
    simp only [Option.any_some, decide_eq_true_eq] at h
    have h := h.resolve_left (hty o ho)
    obtain ⟨v, hv⟩ := Option.isSome_iff_exists.1 h.2
    obtain ⟨i, hi, hval⟩ := C38_unmasked o v s a b c h.1 hv (row_ok ho).2.1 hs ha hb hcc
    refine ⟨o, v, i, rfl, hv, ?_, hval, ?_⟩
    · unfold construct
      rw [hc]
      rcases hsig with rfl | rfl | rfl <;>
        simpa only [Sig.accepts, Option.isNone_none, Bool.and_self, not_true_eq_false, if_false,
          dgetE, ho, py_bind_ok] using hi
    · unfold makeUnmasked dgetE
      rw [ho, hval]
      simp only [py_bind_ok, hv, BitField.needInt, py_pure, unmaskedCode]
      congr 1; ring

/-- C38: `Proceed()` is the unmasked layout with all operands zero. -/
theorem C38_proceed : ∃ i, construct (py "Proceed") {} = .ok i ∧
    i.value = unmaskedCode 0 0 0 0 0 0 ∧ makeUnmasked (py "PR") 0 0 0 0 = .ok i.value :=
  ⟨⟨⟨py "PR", py "Proceed", some 0, some 0, 0, py "unmasked"⟩, ⟨12, 0, .msb1, .msbLeft⟩⟩,
    by decide, by decide, by decide⟩

example : dget CLASSES (py "MultipleUnload") = some (py "ULD", .scientific) ∧
    (∀ o, dget OPCODES (py "ULD") = some o → o.type ≠ py "print") ∧
    (construct (py "MultipleUnload")
      { sequence := some 1, a := some 0, b := some 1, c := some 1 }).map (·.value)
      = .ok 0o7315 := by
  refine ⟨by decide, ?_, by decide⟩
  intro o h
  have : dget OPCODES (py "ULD") = some ⟨py "ULD", py "MultipleUnload", some 3, some 0, 13,
    py "unmasked"⟩ := by decide
  rw [this] at h; cases h; decide

/-- C39, any opcode record: peripheral, print and simulator opcodes. -/
theorem C39_other (o : Opcode) (hr : LegalRecord o.b23 o.b7 o.op) :
    (∀ q p, o.type = py "peripheral" → o.b7 = some q → Fits 6 p →
      ∃ i, Instruction.init o none none none none none (some p) = .ok i ∧
        i.value = peripheralCode p q o.op) ∧
    (∀ q s a b c, o.type = py "print" → o.b23 = none → o.b7 = some q →
      Bit s → Bit a → Bit b → Bit c →
      ∃ i, Instruction.init o (some s) none (some a) (some b) (some c) none = .ok i ∧
        i.value = printCode s a b c q o.op) ∧
    (∀ s, o.type = py "simulator" → o.b23 = none → Bit s →
      ∃ i, Instruction.init o (some s) none none none none none = .ok i ∧
        i.value = simulatorCode s o.op) := by
  refine ⟨?_, ?_, ?_⟩
  · intro q p ht h7 hp
    rw [init_exact, if_pos]
    · refine ⟨_, rfl, ?_⟩
      have hu : Instruction.usesBit7 o.type none = true := by rw [ht]; decide
      simp only [Instruction.value, mkI, topBits, bit7Of, hu, h7, peripheralCode, Option.getD_some]
      simp
    · refine ⟨⟨optIs_none _, optIs_none _, optIs_none _, optIs_none _, optIs_none _, ?_⟩, hr⟩
      rw [optIs_some]; exact ⟨rfl, rfl, rfl, rfl, rfl, hp⟩
  · intro q s a b c ht h23 h7 hs ha hb hc
    rw [init_exact, if_pos]
    · refine ⟨_, rfl, ?_⟩
      have hu : Instruction.usesBit7 o.type none = true := by rw [ht]; decide
      simp only [Instruction.value, mkI, topBits, bit7Of, hu, h7, h23, printCode, Option.getD_some]
      simp
      ring
    · refine ⟨⟨?_, ?_, ?_, ?_, optIs_none _, optIs_none _⟩, hr⟩ <;> rw [optIs_some] <;> assumption
  · intro s ht h23 hs
    rw [init_exact, if_pos]
    · refine ⟨_, rfl, ?_⟩
      have hu : Instruction.usesBit7 o.type none = false := by rw [ht]; decide
      simp only [Instruction.value, mkI, topBits, bit7Of, hu, h23, simulatorCode, Option.getD_some]
      simp
      ring
    · refine ⟨⟨?_, optIs_none _, optIs_none _, optIs_none _, optIs_none _, optIs_none _⟩, hr⟩
      rw [optIs_some]; exact hs

/-- C39, the table: the peripheral and print classes agree with `make_peripheral_opcode` and
`make_print_opcode`, and the simulator class gives 0o0007 and 0o4007. -/
theorem C39_other_classes :
    (∀ cls m p, dget CLASSES cls = some (m, .peripheral) → Fits 6 p →
      ∃ o i, dget OPCODES m = some o ∧ construct cls { paddr := some p } = .ok i ∧
        i.value = peripheralCode p 1 o.op ∧ makePeripheral m p = .ok i.value) ∧
    (∀ cls m sig o s a b c, dget CLASSES cls = some (m, sig) → dget OPCODES m = some o →
      o.type = py "print" → Bit s → Bit a → Bit b → Bit c →
      ∃ i, construct cls { sequence := some s, a := some a, b := some b, c := some c } = .ok i ∧
        i.value = printCode s a b c 1 o.op ∧ makePrint m s a b c = .ok i.value) ∧
    (∃ i, construct (py "Simulator") { sequence := some 0 } = .ok i ∧ i.value = 0o0007) ∧
    (∃ i, construct (py "Simulator") { sequence := some 1 } = .ok i ∧ i.value = 0o4007) := by
  refine ⟨?_, ?_, ?_, ?_⟩
  · intro cls m p hc hp
    have hrow : ∀ p ∈ CLASSES, p.2.2 = .peripheral →
        (dget OPCODES p.2.1).any (fun o => o.type = py "peripheral" ∧ o.b7 = some 1) := by
      decide +kernel
    have h := hrow _ (dget_mem hc) rfl
    simp only at h
    cases ho : dget OPCODES m with
    | none => rw [ho] at h; cases h
    | some o =>
      rw [ho] at h
      simp only [Option.any_some, decide_eq_true_eq] at h
      obtain ⟨i, hi, hv⟩ := (C39_other o (row_ok ho).2.1).1 1 p h.1 h.2 hp
      refine ⟨o, i, rfl, ?_, hv, ?_⟩
      · unfold construct
        rw [hc]
        simpa only [Sig.accepts, decide_true, not_true_eq_false, if_false, dgetE, ho, py_bind_ok]
          using hi
      · unfold makePeripheral dgetE
        rw [ho, hv]
        simp only [py_bind_ok, h.2, BitField.needInt, py_pure, peripheralCode]
        congr 1; ring
  · intro cls m sig o s a b c hc ho ht hs ha hb hcc
    have hrow : ∀ p ∈ CLASSES, (dget OPCODES p.2.1).all (fun o => o.type = py "print" →
        p.2.2 = .unmasked ∧ o.b23 = none ∧ o.b7 = some 1) := by
      decide +kernel
    have h := hrow _ (dget_mem hc)
    simp only [ho, Option.all_some, decide_eq_true_eq] at h
    obtain ⟨rfl, h23, h7⟩ := h ht
    obtain ⟨i, hi, hv⟩ := (C39_other o (row_ok ho).2.1).2.1 1 s a b c ht h23 h7 hs ha hb hcc
    refine ⟨i, ?_, hv, ?_⟩
    · unfold construct
      rw [hc]
      simpa only [Sig.accepts, Option.isNone_none, Bool.and_self, not_true_eq_false, if_false,
        dgetE, ho, py_bind_ok] using hi
    · unfold makePrint dgetE
      rw [ho, hv]
      simp only [py_bind_ok, h7, BitField.needInt, py_pure, printCode]
      congr 1; ring
  · exact ⟨⟨⟨py "S", py "Simulator", none, none, 7, py "simulator"⟩, ⟨12, 7, .msb1, .msbLeft⟩⟩,
      by decide, by decide⟩
  · exact ⟨⟨⟨py "S", py "Simulator", none, none, 7, py "simulator"⟩, ⟨12, 2055, .msb1, .msbLeft⟩⟩,
      by decide, by decide⟩

example : dget CLASSES (py "Rewind") = some (py "RW", .peripheral) ∧
    (construct (py "Rewind") { paddr := some 0o71 }).map (·.value) = .ok 0o7142 ∧
    (construct (py "PrintOctal")
      { sequence := some 1, a := some 1, b := some 0, c := some 1 }).map (·.value)
      = .ok 0o4546 := by decide

/-- C40: a constructed instruction is a 12-bit number whose low five bits are the opcode, and an
instruction word holds it unchanged. -/
theorem C40_fits (o : Opcode) (s m a b c p : Option Int) (i : Instruction)
    (h : Instruction.init o s m a b c p = .ok i) :
    Fits 12 i.value ∧ i.value % 32 = o.op ∧
    ∀ x y z, Fits 12 x → Fits 12 y → Fits 12 z →
      ∃ w, InstructionWord.init i.value x y z = .ok w ∧
        InstructionWord.get w .command = .ok i.value := by
  rw [init_exact] at h
  split at h
  swap
  · cases h
  rename_i hL
  cases h
  obtain ⟨⟨hs, ha, hb, hc, hm, hp⟩, h23, h7, hop⟩ := hL
  have hs := optBit hs
  have ha := optBit ha
  have hb := optBit hb
  have hc := optBit hc
  have h23 := getD_fits h23
  have h7 := getD_fits h7
  have ht : Fits 6 (topBits o.b23 s m a b c p) := by
    unfold topBits
    cases p with
    | some v => exact (hp v rfl).2.2.2.2.2
    | none =>
      cases m with
      | some v =>
        have := (hm v rfl).2.2.2.2.2
        unfold Fits Bit at *; norm_num at *; omega
      | none => simp only; unfold Fits Bit at *; norm_num at *; omega
  have hq : Fits 1 (bit7Of o m) := by
    unfold bit7Of; split
    · exact h7
    · decide
  have hf : Fits 12 (Instruction.value ⟨o, mkI (topBits o.b23 s m a b c p) (bit7Of o m) o.op⟩) :=
    mkI_fits ht hq hop
  refine ⟨hf, ?_, ?_⟩
  · simp only [Instruction.value, mkI]
    unfold Fits at *; norm_num at *; omega
  · intro x y z hx hy hz
    obtain ⟨w, h1, -, -, h2, -⟩ := C16_instructionWord_packs _ x y z hf hx hy hz
    exact ⟨w, h1, h2⟩

example : ∃ i, Instruction.init ⟨py "XX", py "X", some 3, some 1, 31, py "print"⟩ (some 1) none
    (some 1) none none none = .ok i ∧ i.value = 0o7477 :=
  ⟨⟨⟨py "XX", py "X", some 3, some 1, 31, py "print"⟩, ⟨12, 0o7477, .msb1, .msbLeft⟩⟩,
    by decide, by decide⟩

/-- C41: which operand combinations are accepted; all others raise ValueError. -/
theorem C41_accepts (o : Opcode) (s m a b c p : Option Int) :
    ((∃ i, Instruction.init o s m a b c p = .ok i) ↔
      LegalOperands (o.type = py "maskable") s m a b c p ∧ LegalRecord o.b23 o.b7 o.op) ∧
    ((¬ ∃ i, Instruction.init o s m a b c p = .ok i) →
      Instruction.init o s m a b c p = .error .valueError) := by
  rw [init_exact]
  by_cases h : Legal o s m a b c p
  · rw [if_pos h]
    exact ⟨⟨fun _ => h, fun _ => ⟨_, rfl⟩⟩, fun g => absurd ⟨_, rfl⟩ g⟩
  · rw [if_neg h]
    refine ⟨⟨?_, fun g => absurd g h⟩, fun _ => rfl⟩
    rintro ⟨i, hi⟩; cases hi

/-- C41, the table: no row of the opcode table is itself rejected, so for the module's own opcodes
only the operands matter. -/
theorem C41_table (m : Str) (o : Opcode) (h : dget OPCODES m = some o) (s k a b c p : Option Int) :
    (∃ i, Instruction.init o s k a b c p = .ok i) ↔
      LegalOperands (o.type = py "maskable") s k a b c p := by
  rw [(C41_accepts o s k a b c p).1]
  exact ⟨fun h => h.1, fun g => ⟨g, (row_ok h).2.1⟩⟩

example : LegalOperands True (some 1) (some 31) none none none none ∧
    ¬ LegalOperands True (some 1) (some 32) none none none none ∧
    ¬ LegalOperands True (some 1) (some 3) (some 0) none none none ∧
    ¬ LegalOperands False (some 1) (some 3) none none none none ∧
    ¬ LegalOperands False (some 0) none none none none (some 0) := by decide

/-- The keyword arguments of a form. -/
def formArgs : Form → Args
  | .masked s m => { sequence := some s, mask := some m }
  | .unmasked s a b c => { sequence := some s, a := some a, b := some b, c := some c }
  | .peripheral p => { paddr := some p }
  | .print s a b c => { sequence := some s, a := some a, b := some b, c := some c }
  | .simulator s => { sequence := some s }

/-- An instruction of the table: a mnemonic and a form that its opcode can take, operands in
range. -/
def TableInstr (m : Str) (f : Form) : Prop :=
  ∃ o, dget OPCODES m = some o ∧ f.Suits o.type ∧ f.InRange

/-- The command code the module computes for it. -/
def tableCode (m : Str) (f : Form) : Py Int := do
  let o ← dgetE OPCODES m
  let x := formArgs f
  let i ← Instruction.init o x.sequence x.mask x.a x.b x.c x.paddr
  return i.value

theorem tableCode_eq {m : Str} {f : Form} {o : Opcode} (ho : dget OPCODES m = some o)
    (hs : f.Suits o.type) (hf : f.InRange) :
    tableCode m f = .ok (f.code (o.b23.getD 0) (o.b7.getD 0) o.op) := by
  have hr := row_ok ho
  obtain ⟨-, hleg, hty⟩ := hr
  simp only at hleg hty
  unfold tableCode dgetE
  rw [ho]
  simp only [py_bind_ok]
  cases f with
  | masked s k =>
    have h7 : o.b7 = some 1 := by
      rcases hty with h | h | h | h | h <;> simp_all [Form.Suits]
    obtain ⟨i, hi, hv⟩ := C37_masked o 1 s k hs h7 hleg hf.1 hf.2
    simp only [formArgs, hi, py_bind_ok, py_pure, hv, Form.code, h7, Option.getD_some]
  | unmasked s a b c =>
    have h23 : ∃ v, o.b23 = some v := by
      rw [← Option.isSome_iff_exists]
      rcases hty with h | h | h | h | h <;> simp_all [Form.Suits]
    obtain ⟨v, hv⟩ := h23
    obtain ⟨i, hi, hval⟩ := C38_unmasked o v s a b c hs hv hleg hf.1 hf.2.1 hf.2.2.1 hf.2.2.2
    simp only [formArgs, hi, py_bind_ok, py_pure, hval, Form.code, hv, Option.getD_some]
  | peripheral p =>
    have h7 : o.b7 = some 1 := by
      rcases hty with h | h | h | h | h <;> simp_all [Form.Suits]
    obtain ⟨i, hi, hv⟩ := (C39_other o hleg).1 1 p hs h7 hf
    simp only [formArgs, hi, py_bind_ok, py_pure, hv, Form.code, h7, Option.getD_some]
  | print s a b c =>
    have h7 : o.b7 = some 1 ∧ o.b23 = none := by
      rcases hty with h | h | h | h | h <;> simp_all [Form.Suits]
    obtain ⟨i, hi, hv⟩ := (C39_other o hleg).2.1 1 s a b c hs h7.2 h7.1 hf.1 hf.2.1 hf.2.2.1
      hf.2.2.2
    simp only [formArgs, hi, py_bind_ok, py_pure, hv, Form.code, h7, Option.getD_some]
  | simulator s =>
    have h23 : o.b23 = none := by
      rcases hty with h | h | h | h | h <;> simp_all [Form.Suits]
    obtain ⟨i, hi, hv⟩ := (C39_other o hleg).2.2 s hs h23 hf
    simp only [formArgs, hi, py_bind_ok, py_pure, hv, Form.code]

/-- C42, the property as stated. -/
def C42_statement : Prop :=
  ∀ m f m' f', TableInstr m f → TableInstr m' f' → tableCode m f = tableCode m' f' →
    m = m' ∧ f = f'

/-- C42 is false: the unmasked form of NA and FNN have the same code, and so do PRA and PRD. -/
theorem C42_refuted : ¬ C42_statement ∧
    (∃ f, TableInstr (py "NA") f ∧ TableInstr (py "FNN") f ∧
      tableCode (py "NA") f = .ok 0o2014 ∧ tableCode (py "FNN") f = .ok 0o2014) ∧
    (∃ f, TableInstr (py "PRA") f ∧ TableInstr (py "PRD") f ∧
      tableCode (py "PRA") f = .ok 0o0046 ∧ tableCode (py "PRD") f = .ok 0o0046) := by
  have h1 : TableInstr (py "NA") (.unmasked 0 0 0 0) :=
    ⟨⟨py "NA", py "NotEqualAlphabetic", some 2, some 1, 12, py "maskable"⟩, by decide, by decide,
      by decide⟩
  have h2 : TableInstr (py "FNN") (.unmasked 0 0 0 0) :=
    ⟨⟨py "FNN", py "FloatingNotEqualNormalized", some 2, some 0, 12, py "unmasked"⟩, by decide,
      by decide, by decide⟩
  have h3 : TableInstr (py "PRA") (.print 0 0 0 0) :=
    ⟨⟨py "PRA", py "PrintAlphabetic", none, some 1, 6, py "print"⟩, by decide, by decide,
      by decide⟩
  have h4 : TableInstr (py "PRD") (.print 0 0 0 0) :=
    ⟨⟨py "PRD", py "PrintDecimal", none, some 1, 6, py "print"⟩, by decide, by decide,
      by decide⟩
  refine ⟨?_, ⟨_, h1, h2, by decide, by decide⟩, ⟨_, h3, h4, by decide, by decide⟩⟩
  intro h
  have := (h _ _ _ _ h1 h2 (by decide)).1
  revert this; decide

/-- C42, exactly: two instructions of the table have the same code iff they have the same form and
operands, and the same mnemonic or one of the clashes PRA/PRD/PRO and NA (unmasked)/FNN. The full
statement fails only at these. -/
theorem C42_clashes_partial (m m' : Str) (f f' : Form) (h : TableInstr m f)
    (h' : TableInstr m' f') :
    tableCode m f = tableCode m' f' ↔ f = f' ∧ (m = m' ∨ Clash f m m') := by
  obtain ⟨o, ho, hs, hf⟩ := h
  obtain ⟨o', ho', hs', hf'⟩ := h'
  rw [tableCode_eq ho hs hf, tableCode_eq ho' hs' hf', Except.ok.injEq]
  have mem := dget_mem ho
  have mem' := dget_mem ho'
  constructor
  · intro heq
    obtain ⟨l23, -, lop⟩ := (row_ok ho).2.1
    obtain ⟨l23', -, lop'⟩ := (row_ok ho').2.1
    obtain ⟨p1, p2, p3⟩ := form_parts (q := o.b7.getD 0) hf (getD_fits l23)
      (fun e => by rw [flag_b7 ho hs e]; rfl) lop
    obtain ⟨p1', p2', p3'⟩ := form_parts (q := o'.b7.getD 0) hf' (getD_fits l23')
      (fun e => by rw [flag_b7 ho' hs' e]; rfl) lop'
    rw [heq] at p1 p2 p3
    have htop : formTop (o.b23.getD 0) f = formTop (o'.b23.getD 0) f' := p1.symm.trans p1'
    have hflag : formFlag f = formFlag f' := p2.symm.trans p2'
    have hop : o.op = o'.op := p3.symm.trans p3'
    have g23 := getD_fits l23
    have g23' := getD_fits l23'
    have hmask : formFlag f = 1 → (m, o) = (m', o') ∨
        (o.type = py "print" ∧ o'.type = py "print") := fun e =>
      sep_masked _ mem _ mem' hop (flag_b7 ho hs e) (flag_b7 ho' hs' (hflag ▸ e))
    cases f with
    | masked s k =>
      have hs : o.type = py "maskable" := hs
      rcases hmask rfl with e | e
      · cases e
        cases f' with
        | masked s' k' =>
          refine ⟨?_, Or.inl rfl⟩
          obtain ⟨q1, q2⟩ := hf
          obtain ⟨q1', q2'⟩ := hf'
          simp only [formTop] at htop
          rw [Form.masked.injEq]
          unfold Fits Bit at *; norm_num at *; omega
        | peripheral p => rw [Form.Suits, hs] at hs'; exact absurd hs' (by decide)
        | print s a b c => rw [Form.Suits, hs] at hs'; exact absurd hs' (by decide)
        | unmasked s a b c => simp [formFlag] at hflag
        | simulator s => simp [formFlag] at hflag
      · rw [hs] at e; exact absurd e.1 (by decide)
    | peripheral p =>
      have hs : o.type = py "peripheral" := hs
      rcases hmask rfl with e | e
      · cases e
        cases f' with
        | masked s' k' => rw [Form.Suits, hs] at hs'; exact absurd hs' (by decide)
        | peripheral p' =>
          refine ⟨?_, Or.inl rfl⟩
          simp only [formTop] at htop
          rw [htop]
        | print s a b c => rw [Form.Suits, hs] at hs'; exact absurd hs' (by decide)
        | unmasked s a b c => simp [formFlag] at hflag
        | simulator s => simp [formFlag] at hflag
      · rw [hs] at e; exact absurd e.1 (by decide)
    | print s a b c =>
      have hs : o.type = py "print" := hs
      have hp : o'.type = py "print" := by
        rcases hmask rfl with e | e
        · cases e; exact hs
        · exact e.2
      cases f' with
      | masked s' k' => rw [Form.Suits, hp] at hs'; exact absurd hs' (by decide)
      | peripheral p' => rw [Form.Suits, hp] at hs'; exact absurd hs' (by decide)
      | print s' a' b' c' =>
        constructor
        · obtain ⟨q1, q2, q3, q4⟩ := hf
          obtain ⟨q1', q2', q3', q4'⟩ := hf'
          simp only [formTop] at htop
          rw [Form.print.injEq]
          unfold Bit at *; omega
        · right; left
          have r := (print_rows _ mem hs).1
          have r' := (print_rows _ mem' hp).1
          simp only [List.mem_cons, List.not_mem_nil, or_false]
          exact ⟨r, r'⟩
      | unmasked s a b c => simp [formFlag] at hflag
      | simulator s => simp [formFlag] at hflag
    | unmasked s a b c =>
      cases f' with
      | masked s' k' => simp [formFlag] at hflag
      | peripheral p' => simp [formFlag] at hflag
      | print s' a' b' c' => simp [formFlag] at hflag
      | simulator s' =>
        have hs' : o'.type = py "simulator" := hs'
        have e := type_of_op7 ho (by rw [hop]; exact op_of_simulator ho' hs')
        rw [Form.Suits, e] at hs
        exact absurd hs (by decide)
      | unmasked s' a' b' c' =>
        obtain ⟨v, hv⟩ := b23_of_unmasked ho hs
        obtain ⟨v', hv'⟩ := b23_of_unmasked ho' hs'
        obtain ⟨q1, q2, q3, q4⟩ := hf
        obtain ⟨q1', q2', q3', q4'⟩ := hf'
        simp only [formTop, hv, hv', Option.getD_some] at htop g23 g23'
        have e : s = s' ∧ v = v' ∧ a = a' ∧ b = b' ∧ c = c' := by
          exact unmasked_top q1 q2 q3 q4 q1' q2' q3' q4' g23 g23' htop
        obtain ⟨rfl, rfl, rfl, rfl, rfl⟩ := e
        refine ⟨rfl, ?_⟩
        rcases sep_unmasked _ mem _ mem' hop (hv.trans hv'.symm) (by simp [hv]) with e | e | e
        · cases e; left; rfl
        · right; right; exact ⟨⟨_, _, _, _, rfl⟩, Or.inl e⟩
        · right; right; exact ⟨⟨_, _, _, _, rfl⟩, Or.inr e⟩
    | simulator s =>
      have hs : o.type = py "simulator" := hs
      have e := type_of_op7 ho' (by rw [← hop]; exact op_of_simulator ho hs)
      cases f' with
      | masked s' k' => simp [formFlag] at hflag
      | peripheral p' => simp [formFlag] at hflag
      | print s' a' b' c' => simp [formFlag] at hflag
      | unmasked s' a' b' c' => rw [Form.Suits, e] at hs'; exact absurd hs' (by decide)
      | simulator s' =>
        have r : m = py "S" := sep_simulator _ mem (op_of_simulator ho hs)
        have r' : m' = py "S" := sep_simulator _ mem' (op_of_simulator ho' e)
        refine ⟨?_, Or.inl (r.trans r'.symm)⟩
        simp only [formTop] at htop
        rw [Form.simulator.injEq]; omega
  · rintro ⟨rfl, e⟩
    rcases e with rfl | e
    · rw [ho] at ho'; cases ho'; rfl
    · obtain ⟨e1, e2, e3⟩ := clash_fields ho ho' e
      rcases e3 with e3 | ⟨s, a, b, c, rfl⟩
      · rw [e1, e2, e3]
      · simp only [Form.code, e1, e2]

example : TableInstr (py "BA") (.masked 1 5) ∧ TableInstr (py "FLN") (.unmasked 0 1 0 1) ∧
    tableCode (py "BA") (.masked 1 5) = .ok 0o4551 ∧
    tableCode (py "FLN") (.unmasked 0 1 0 1) = .ok 0o0530 :=
  ⟨⟨⟨py "BA", py "BinaryAdd", some 2, some 1, 9, py "maskable"⟩, by decide, by decide, by decide⟩,
   ⟨⟨py "FLN", py "FloatingLessThanNormalized", some 0, some 0, 24, py "unmasked"⟩, by decide,
     by decide, by decide⟩, by decide, by decide⟩

/-- C43: a constant class accepts exactly the 48-bit integers and holds the given value. -/
theorem C43_constants (cls : Str) (hc : cls ∈ CONSTANT_CLASSES.map (·.1)) (v : Int) :
    (Fits 48 v → ∃ w, constructConstant cls v = .ok w ∧ w.value = v) ∧
    (¬ Fits 48 v → constructConstant cls v = .error .valueError) := by
  obtain ⟨m, hm⟩ := Option.isSome_iff_exists.1 (dget_isSome.2 hc)
  unfold constructConstant Constant.init
  rw [hm]
  constructor
  · intro h
    refine ⟨mkWord v, ?_, rfl⟩
    simp only [if_neg ((fits48 v).1 h), word_init, if_pos h]
  · intro h
    simp only [word_init, if_neg h]
    rw [fits48, not_not] at h
    rw [if_pos h]

/-- C43: every constant mnemonic has a class. -/
theorem C43_all_mnemonics : ∀ m ∈ DATA_CONSTANTS ++ CONTROL_CONSTANTS,
    ∃ cls, (cls, m) ∈ CONSTANT_CLASSES := by
  have h : ∀ m ∈ DATA_CONSTANTS ++ CONTROL_CONSTANTS, m ∈ CONSTANT_CLASSES.map (·.2) := by
    decide +kernel
  intro m hm
  obtain ⟨p, hp, e⟩ := List.mem_map.1 (h m hm)
  exact ⟨p.1, by rw [← e]; exact hp⟩

example : py "OctalConstant" ∈ CONSTANT_CLASSES.map (·.1) ∧
    (constructConstant (py "OctalConstant") (2 ^ 48 - 1)).map (·.value) = .ok (2 ^ 48 - 1) ∧
    constructConstant (py "OctalConstant") (2 ^ 48) = .error .valueError := by decide

/-- C44, the property as stated. -/
def C44_statement : Prop :=
  ∀ m o, dget OPCODES m = some o → ∃ sig, dget CLASSES o.c = some (m, sig)

/-- C44 is false: the table names `TransferAndChangeSequence` for TS; no such class exists. -/
theorem C44_refuted : ¬ C44_statement ∧
    ∃ o, dget OPCODES (py "TS") = some o ∧ dget CLASSES o.c = none := by
  have h1 : dget OPCODES (py "TS") = some ⟨py "TS", py "TransferAndChangeSequence", some 2, some 1, 4,
      py "maskable"⟩ := by decide +kernel
  have h2 : dget CLASSES (py "TransferAndChangeSequence") = none := by decide +kernel
  refine ⟨?_, ⟨_, h1, h2⟩⟩
  intro h
  obtain ⟨sig, hs⟩ := h _ _ h1
  rw [h2] at hs; cases hs

/-- C44, exactly: TS is the only exception; and every mnemonic, TS included, has exactly one class
that builds it. -/
theorem C44_except_TS_partial :
    (∀ m o, dget OPCODES m = some o → ((∃ sig, dget CLASSES o.c = some (m, sig)) ↔ m ≠ py "TS")) ∧
    (∀ m, m ∈ OPCODES.map (·.1) →
      ∃ cls sig, dget CLASSES cls = some (m, sig) ∧
        ∀ cls' sig', dget CLASSES cls' = some (m, sig') → cls' = cls) := by
  constructor
  · intro m o h
    have t : ∀ p ∈ OPCODES, ((dget CLASSES p.2.c).any (fun q => q.1 = p.1) ↔ p.1 ≠ py "TS") := by
      decide +kernel
    rw [← t _ (dget_mem h)]
    simp only
    cases dget CLASSES o.c with
    | none => simp
    | some q =>
      obtain ⟨k, sig⟩ := q
      simp only [Option.any_some, decide_eq_true_eq, Option.some.injEq, Prod.mk.injEq, exists_and_left,
        exists_eq', and_true]
  · intro m hm
    have t : ∀ m ∈ OPCODES.map (·.1), ∃ p ∈ CLASSES, p.2.1 = m ∧
        dget CLASSES p.1 = some p.2 ∧ ∀ p' ∈ CLASSES, p'.2.1 = m → p'.1 = p.1 := by
      decide +kernel
    obtain ⟨p, -, rfl, h2, h3⟩ := t m hm
    exact ⟨p.1, p.2.2, h2, fun cls' sig' h => h3 _ (dget_mem h) rfl⟩

example : py "TS" ∈ OPCODES.map (·.1) ∧
    dget CLASSES (py "TransferChangeSequence") = some (py "TS", .maskable) := by decide +kernel

/-- C45, the property as stated. -/
def C45_statement : Prop :=
  ∀ cls ∈ CONTROL_CLASSES, ∀ m a b c, ∃ i, constructControl cls m a b c = .ok i

/-- C45 is false: `PseudoInstruction.__init__` passes `mnemonic=` to a constructor that has no such
parameter. -/
theorem C45_refuted : ¬ C45_statement := by
  intro h
  obtain ⟨i, hi⟩ := h (py "SetLocationCounter") (by decide) (py "SETLOC") none none none
  revert hi
  have : constructControl (py "SetLocationCounter") (py "SETLOC") none none none
      = .error .typeError := by decide
  rw [this]; intro e; cases e

/-- C45, exactly: every construction of every control class raises TypeError. -/
theorem C45_never_partial (cls : Str) (hc : cls ∈ CONTROL_CLASSES) (m : Str)
    (a b c : Option Int) : constructControl cls m a b c = .error .typeError := by
  unfold constructControl AssemblyControl.init PseudoInstruction.init
  rw [if_pos hc]
  have : bindCall Instruction.params 0 [py "mnemonic", py "a", py "b", py "c", py "pseudo"]
      = .error .typeError := by decide
  rw [this]

example : py "Equals" ∈ CONTROL_CLASSES := by decide

end H800
