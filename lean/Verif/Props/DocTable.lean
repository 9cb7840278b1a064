import Verif.Lemmas.DocTable

/-!
Property C98: the opcode table and the instruction classes agree with the documented table of bit
patterns, in both directions.
-/

namespace H800

open Spec

/-- C98: whatever the operands, an instruction object of a class of the module has a code that is an
instance of the documented pattern: there is a row for the form, the fixed positions agree, the
letters stand for the operands, and the insignificant positions are left zero. `Proceed`, which
takes no operands, is below. -/
theorem C98_documented (cls m : Str) (sig : Sig) (o : Opcode) (hc : dget CLASSES cls = some (m, sig))
    (ho : dget OPCODES m = some o) (hm : m ≠ py "PR") (f : Form) (hf : f.InRange)
    (hs : f.Suits o.type) :
    ∃ i, construct cls (formArgs f) = .ok i ∧
      (∃ row ∈ docTable, row.m = m ∧ f.Row row.form) ∧
      ∀ row ∈ docTable, row.m = m → f.Row row.form →
        f.Instance row.pat i.value ∧ fieldAt 'x' row.pat i.value = 0 := by
  obtain ⟨i, hi, hv⟩ := construct_form hc ho hm hf hs
  have hfit : Fits 12 i.value := by
    rw [hv]; exact code_fits12 ho hf hs
  refine ⟨i, hi, ?_, ?_⟩
  · obtain ⟨r1, r2, r3⟩ := rows_exist _ (dget_mem ho)
    simp only at r1 r2 r3
    cases f with
    | masked s k => exact (r1 hs).1
    | unmasked s a b c =>
      rcases hs with h | h
      · obtain ⟨r, hr, h1, h2⟩ := (r1 h).2
        exact ⟨r, hr, h1, Or.inl h2⟩
      · obtain ⟨r, hr, h1, h2⟩ := r3 (by rw [h]; decide) (by rw [h]; decide)
        exact ⟨r, hr, h1, Or.inr h2⟩
    | peripheral p =>
      simp only [Form.Suits] at hs
      exact r3 (by rw [hs]; decide) (by rw [hs]; decide)
    | print s a b c =>
      simp only [Form.Suits] at hs
      exact r3 (by rw [hs]; decide) (by rw [hs]; decide)
    | simulator s =>
      obtain ⟨⟨r, hr, h1, h2⟩, ⟨r', hr', h1', h2'⟩⟩ := r2 hs
      rcases hf with h | h
      · exact ⟨r, hr, h1, Or.inl ⟨h, h2⟩⟩
      · exact ⟨r', hr', h1', Or.inr ⟨h, h2'⟩⟩
  · intro row hr hrm hrow
    subst hrm
    exact (inst_iff hr hm ho hrow hs hfit).2 ⟨hf, hv⟩

/-- C98, conversely: reading the operands of a form off any 12-bit code that agrees with a
documented row and leaves the insignificant positions zero gives operands in range, and the class
of the mnemonic builds exactly that code from them. -/
theorem C98_conversely (row : DocRow) (hr : row ∈ docTable) (hm : row.m ≠ py "PR") (code : Int)
    (hc : Fits 12 code) (f : Form) (hrow : f.Row row.form) (hx : fieldAt 'x' row.pat code = 0)
    (hi : f.Instance row.pat code) (cls : Str) (sig : Sig)
    (hcls : dget CLASSES cls = some (row.m, sig)) (o : Opcode) (ho : dget OPCODES row.m = some o)
    (hs : f.Suits o.type) :
    f.InRange ∧ ∃ i, construct cls (formArgs f) = .ok i ∧ i.value = code := by
  obtain ⟨hf, e⟩ := (inst_iff hr hm ho hrow hs hc).1 ⟨hi, hx⟩
  obtain ⟨i, h1, h2⟩ := construct_form hcls ho hm hf hs
  exact ⟨hf, i, h1, by rw [h2, e]⟩

/-- C98: the one class without operands. -/
theorem C98_proceed : ∃ i, construct (py "Proceed") {} = .ok i ∧
    ∀ row ∈ docTable, row.m = py "PR" →
      FixedAgree row.pat i.value ∧ fieldAt 'x' row.pat i.value = 0 :=
  ⟨⟨⟨py "PR", py "Proceed", some 0, some 0, 0, py "unmasked"⟩, ⟨12, 0, .msb1, .msbLeft⟩⟩,
    by decide, by decide +kernel⟩

/-- C98: the documented table and the opcode table have the same mnemonics, and no mnemonic has two
rows for one form. -/
theorem C98_mnemonics :
    (∀ m, (∃ row ∈ docTable, row.m = m) ↔ (dget OPCODES m).isSome) ∧
    docTable.Pairwise fun r r' => r.m ≠ r'.m ∨ r.form ≠ r'.form := by
  refine ⟨fun m => ⟨?_, ?_⟩, by decide +kernel⟩
  · have key : ∀ row ∈ docTable, (dget OPCODES row.m).isSome := by decide +kernel
    rintro ⟨row, hr, rfl⟩
    exact key row hr
  · have key : ∀ p ∈ OPCODES, ∃ row ∈ docTable, row.m = p.1 := by decide +kernel
    intro h
    obtain ⟨o, ho⟩ := Option.isSome_iff_exists.1 h
    exact key _ (dget_mem ho)

example : dget CLASSES (py "BinaryAdd") = some (py "BA", .maskable) ∧
    (∃ o, dget OPCODES (py "BA") = some o ∧ Form.Suits o.type (.unmasked 1 0 1 1)) ∧
    Form.Row (py "unmasked") (.unmasked 1 0 1 1) ∧
    Form.Instance (py "s10abc001001") 0b110011001001 (.unmasked 1 0 1 1) ∧
    fieldAt 'x' (py "s10abc001001") 0b110011001001 = 0 :=
  ⟨by decide, ⟨⟨py "BA", py "BinaryAdd", some 2, some 1, 9, py "maskable"⟩, by decide, by decide⟩,
    Or.inl rfl, by unfold Form.Instance; decide, by decide⟩

end H800
