import Verif.Props.DocTable
import Verif.Spec.TableII

/-!
C190: which of the command codes of Table II of the manual the instruction classes make.
-/

namespace H800

open Spec

theorem tableII_doc (m p : Str) : (m, p) ∈ tableIIForms ↔ ∃ row ∈ docTable, row.m = m ∧ row.pat = p := by
  have h1 : ∀ q ∈ tableIIForms, ∃ row ∈ docTable, row.m = q.1 ∧ row.pat = q.2 := by decide +kernel
  have h2 : ∀ row ∈ docTable, (row.m, row.pat) ∈ tableIIForms := by decide +kernel
  constructor
  · exact h1 _
  · rintro ⟨row, hr, rfl, rfl⟩
    exact h2 row hr

/-- Operands that are left out are zero. -/
theorem optIs_getD {P : Int → Prop} {x : Option Int} (h : OptIs P x) (h0 : P 0) : P (x.getD 0) := by
  cases x with
  | none => exact h0
  | some v => exact h v rfl

/-- Whatever the arguments, what a class makes is a form of its opcode with operands in range. -/
theorem construct_is_form {cls m : Str} {sig : Sig} {o : Opcode} {x : Args} {i : Instruction}
    (hc : dget CLASSES cls = some (m, sig)) (ho : dget OPCODES m = some o) (hm : m ≠ py "PR")
    (h : construct cls x = .ok i) :
    ∃ f : Form, f.InRange ∧ f.Suits o.type ∧ i.value = f.code (o.b23.getD 0) (o.b7.getD 0) o.op := by
  have cs := classes_sig _ (dget_mem hc)
  have cs' : ∀ p ∈ CLASSES, p.2.2 = .proceed → p.2.1 = py "PR" := by decide +kernel
  have cs2 : ∀ p ∈ CLASSES, p.2.2 = .simulator → p.1 = py "Simulator" := by decide +kernel
  have cs3 : ∀ p ∈ CLASSES, (dget OPCODES p.2.1).any fun o => p.2.2 = .unmasked ∨ p.2.2 = .scientific →
      o.type = py "unmasked" ∨ o.type = py "print" ∧ o.b23 = none ∧ o.b7 = some 1 := by decide +kernel
  have hcs' := cs' _ (dget_mem hc)
  have hcs2 := cs2 _ (dget_mem hc)
  have hcs3 := cs3 _ (dget_mem hc)
  simp only at cs hcs' hcs2 hcs3
  rw [ho] at cs hcs3
  simp only [Option.any_some, decide_eq_true_eq] at cs hcs3
  obtain ⟨c1, c2, c3, c4⟩ := cs
  have rk := (row_ok ho).2.2
  simp only at rk
  have z : Bit 0 := Or.inl rfl
  unfold construct at h
  rw [hc] at h
  simp only [dgetE, ho, py_bind_ok] at h
  split at h
  · cases h
  rename_i hacc
  have un : ∀ (t : o.type = py "unmasked" ∨ o.type = py "maskable"),
      Instruction.init o x.sequence none x.a x.b x.c none = .ok i →
      ∃ f : Form, f.InRange ∧ f.Suits o.type ∧ i.value = f.code (o.b23.getD 0) (o.b7.getD 0) o.op := by
    intro t h
    rw [init_exact] at h
    split at h
    · rename_i hL
      obtain ⟨⟨hs, ha, hb, hcc, -, -⟩, -⟩ := hL
      cases h
      refine ⟨.unmasked (x.sequence.getD 0) (x.a.getD 0) (x.b.getD 0) (x.c.getD 0),
        ⟨optIs_getD hs z, optIs_getD ha z, optIs_getD hb z, optIs_getD hcc z⟩, t.symm, ?_⟩
      have h7 : bit7Of o none = 0 := by
        unfold bit7Of Instruction.usesBit7
        rcases t with t | t <;> rw [t] <;> simp +decide
      show (mkI _ _ _).value = _
      rw [h7]
      simp only [mkI, topBits, Form.code, unmaskedCode]
      ring
    · cases h
  cases sig with
  | maskable =>
    have t := c1.2 rfl
    simp only at h
    cases hk : x.mask with
    | none => rw [hk] at h; exact un (Or.inr t) h
    | some k =>
      rw [hk, init_exact] at h
      split at h
      · rename_i hL
        obtain ⟨⟨hs, -, -, -, hmm, -⟩, -⟩ := hL
        cases h
        refine ⟨.masked (x.sequence.getD 0) k, ⟨optIs_getD hs z, (hmm k rfl).2.2.2.2.2⟩, t, ?_⟩
        have h7 : bit7Of o (some k) = o.b7.getD 0 := by
          unfold bit7Of Instruction.usesBit7
          rw [t]; simp
        show (mkI _ _ _).value = _
        rw [h7]
        simp only [mkI, topBits, Form.code, maskedCode]
        ring
      · cases h
  | unmasked | scientific =>
    simp only at h
    rcases hcs3 (by simp) with t | ⟨t, h23, hb7⟩
    · exact un (Or.inl t) h
    · rw [init_exact] at h
      split at h
      · rename_i hL
        obtain ⟨⟨hs, ha, hb, hcc, -, -⟩, -⟩ := hL
        cases h
        refine ⟨.print (x.sequence.getD 0) (x.a.getD 0) (x.b.getD 0) (x.c.getD 0),
          ⟨optIs_getD hs z, optIs_getD ha z, optIs_getD hb z, optIs_getD hcc z⟩, t, ?_⟩
        have h7 : bit7Of o none = o.b7.getD 0 := by
          unfold bit7Of Instruction.usesBit7
          rw [t]; simp +decide
        show (mkI _ _ _).value = _
        rw [h7, h23, hb7]
        simp only [mkI, topBits, Form.code, printCode, Option.getD_none, Option.getD_some]
        ring
      · cases h
  | proceed => exact absurd (hcs' rfl) hm
  | peripheral =>
    have t := c2.2 rfl
    simp only at h
    rw [init_exact] at h
    split at h
    · rename_i hL
      obtain ⟨⟨-, -, -, -, -, hp⟩, -⟩ := hL
      cases h
      have hp' : Fits 6 (x.paddr.getD 0) := by
        cases hx : x.paddr with
        | none => decide
        | some p => exact (hp p hx).2.2.2.2.2
      refine ⟨.peripheral (x.paddr.getD 0), hp', t, ?_⟩
      have h7 : bit7Of o none = o.b7.getD 0 := by
        unfold bit7Of Instruction.usesBit7
        rw [t]; simp +decide
      have h23 : o.b23 = none := by
        rcases rk with h | h | h | h | h <;>
          first | exact h.2.1 | (rw [t] at h; exact absurd h.1 (by decide))
      show (mkI _ _ _).value = _
      rw [h7, h23]
      cases x.paddr <;> simp only [mkI, topBits, Form.code, peripheralCode, Option.getD_none,
        Option.getD_some] <;> ring
    · cases h
  | simulator =>
    have t := c3.2 (hcs2 rfl)
    simp only at h
    rw [init_exact] at h
    split at h
    · rename_i hL
      obtain ⟨⟨hs, -⟩, -⟩ := hL
      cases h
      refine ⟨.simulator (x.sequence.getD 0), optIs_getD hs z, t, ?_⟩
      have h7 : bit7Of o none = 0 := by
        unfold bit7Of Instruction.usesBit7
        rw [t]; simp +decide
      have h23 : o.b23 = none := by
        rcases rk with h | h | h | h | h <;>
          first | exact h.2.1 | (rw [t] at h; exact absurd h.1 (by decide))
      show (mkI _ _ _).value = _
      rw [h7, h23]
      simp only [mkI, topBits, Form.code, simulatorCode, Option.getD_none]
      ring
    · cases h

/-- C190, the property as stated: every command code the manual gives to an instruction can be made
with the class of that instruction. -/
def C190_statement : Prop :=
  ∀ m c, ManualCode m c → ∃ cls sig x i, dget CLASSES cls = some (m, sig) ∧
    construct cls x = .ok i ∧ i.value = c

/-- A code of proceed with the irrelevant positions zero. -/
theorem proceed_zero {c : Int} (h : Fits 12 c) (hf : FixedAgree (py "x000xx000000") c)
    (hx : fieldAt 'x' (py "x000xx000000") c = 0) : c = 0 := by
  obtain ⟨d0, d1, d2, d3, d4, d5, d6, d7, d8, d9, d10, d11, h0, h1, h2, h3, h4, h5, h6, h7, h8, h9,
    h10, h11, rfl⟩ := sum12_exists h
  unfold FixedAgree at hf
  unfold fieldAt at hx
  rw [digits12_sum h0 h1 h2 h3 h4 h5 h6 h7 h8 h9 h10 h11] at hf hx
  simp [List.foldl] at hf hx
  obtain ⟨rfl, rfl, rfl, rfl, rfl, rfl, rfl, rfl, rfl⟩ := hf
  unfold sum12
  unfold Bit at *
  omega

/-- The simulator codes: three ones at the end, and bit 1. -/
theorem simulator_fixed {c : Int} (h : Fits 12 c) :
    (FixedAgree (py "0xxxxxxxx111") c ↔ c % 8 = 7 ∧ c < 2048) ∧
    (FixedAgree (py "1xxxxxxxx111") c ↔ c % 8 = 7 ∧ 2048 ≤ c) ∧
    (FixedAgree (py "0xxxxxxxx111") c → fieldAt 'x' (py "0xxxxxxxx111") c = c / 8) ∧
    (FixedAgree (py "1xxxxxxxx111") c → fieldAt 'x' (py "1xxxxxxxx111") c = (c - 2048) / 8) := by
  obtain ⟨d0, d1, d2, d3, d4, d5, d6, d7, d8, d9, d10, d11, h0, h1, h2, h3, h4, h5, h6, h7, h8, h9,
    h10, h11, rfl⟩ := sum12_exists h
  unfold FixedAgree fieldAt
  rw [digits12_sum h0 h1 h2 h3 h4 h5 h6 h7 h8 h9 h10 h11]
  simp [List.foldl]
  have g0 := bit_range h0
  have g1 := bit_range h1
  have g2 := bit_range h2
  have g3 := bit_range h3
  have g4 := bit_range h4
  have g5 := bit_range h5
  have g6 := bit_range h6
  have g7 := bit_range h7
  have g8 := bit_range h8
  have g9 := bit_range h9
  have g10 := bit_range h10
  have g11 := bit_range h11
  clear h0 h1 h2 h3 h4 h5 h6 h7 h8 h9 h10 h11 h
  unfold sum12
  refine ⟨?_, ?_, ?_, ?_⟩
  · constructor
    · rintro ⟨rfl, rfl, rfl, rfl⟩; omega
    · intro h; omega
  · constructor
    · rintro ⟨rfl, rfl, rfl, rfl⟩; omega
    · intro h; omega
  · rintro rfl rfl rfl rfl; omega
  · rintro rfl rfl rfl rfl; omega

/-- C190, exactly what can be made: with the class of an instruction, whatever the arguments, the codes
the manual gives to it in a form whose irrelevant positions are zero. -/
theorem C190_codes_partial (cls m : Str) (sig : Sig) (hc : dget CLASSES cls = some (m, sig)) (c : Int) :
    (∃ x i, construct cls x = .ok i ∧ i.value = c) ↔ ManualCodeZero m c := by
  have hop : ∀ p ∈ CLASSES, (dget OPCODES p.2.1).isSome := by decide +kernel
  obtain ⟨o, ho⟩ := Option.isSome_iff_exists.1 (hop _ (dget_mem hc))
  simp only at ho
  by_cases hm : m = py "PR"
  · subst hm
    have hcls : ∀ p ∈ CLASSES, p.2.1 = py "PR" → p.1 = py "Proceed" ∧ p.2.2 = .proceed := by
      decide +kernel
    obtain ⟨rfl, rfl⟩ := hcls _ (dget_mem hc) rfl
    constructor
    · rintro ⟨x, i, hx, rfl⟩
      unfold construct at hx
      rw [hc] at hx
      simp only [dgetE, ho, py_bind_ok] at hx
      split at hx
      · cases hx
      · have e : dget OPCODES (py "PR") =
          some ⟨py "PR", py "Proceed", some 0, some 0, 0, py "unmasked"⟩ := by decide +kernel
        rw [e] at ho
        cases ho
        have e2 : Instruction.init ⟨py "PR", py "Proceed", some 0, some 0, 0, py "unmasked"⟩ (some 0)
            none (some 0) (some 0) (some 0) none =
            .ok ⟨⟨py "PR", py "Proceed", some 0, some 0, 0, py "unmasked"⟩, ⟨12, 0, .msb1, .msbLeft⟩⟩ := by
          decide +kernel
        rw [e2] at hx
        cases hx
        exact ⟨by decide, py "x000xx000000", by decide +kernel, by decide +kernel, by decide +kernel⟩
    · rintro ⟨hfit, p, hp, hfix, hx⟩
      have hp1 : ∀ q ∈ tableIIForms, q.1 = py "PR" → q.2 = py "x000xx000000" := by decide +kernel
      obtain rfl := hp1 _ hp rfl
      obtain rfl := proceed_zero hfit hfix hx
      have e : construct (py "Proceed") {} =
        .ok ⟨⟨py "PR", py "Proceed", some 0, some 0, 0, py "unmasked"⟩, ⟨12, 0, .msb1, .msbLeft⟩⟩ := by
        decide +kernel
      exact ⟨{}, _, e, rfl⟩
  constructor
  · rintro ⟨x, i, hx, rfl⟩
    obtain ⟨f, hf, hs, hv⟩ := construct_is_form hc ho hm hx
    obtain ⟨j, hj, ⟨row, hr, hrm, hrf⟩, hall⟩ := C98_documented cls m sig o hc ho hm f hf hs
    obtain ⟨j', hj', hv'⟩ := construct_form hc ho hm hf hs
    rw [hj] at hj'
    cases hj'
    have hin := hall row hr hrm hrf
    rw [hv', ← hv] at hin
    refine ⟨by rw [hv]; exact code_fits12 ho hf hs, row.pat, (tableII_doc _ _).2 ⟨row, hr, hrm, rfl⟩,
      ?_, hin.2⟩
    cases f <;> first | exact hin.1.1 | exact hin.1
  · rintro ⟨hfit, p, hp, hfix, hx⟩
    obtain ⟨row, hr, rfl, rfl⟩ := (tableII_doc m p).1 hp
    have hform : ∀ row ∈ docTable, (dget OPCODES row.m).any fun o =>
        row.form = py "masked" ∧ o.type = py "maskable" ∨
        (row.form = py "unmasked" ∧ o.type = py "maskable" ∨ row.form = [] ∧ o.type = py "unmasked") ∨
        row.form = [] ∧ o.type = py "peripheral" ∨ row.form = [] ∧ o.type = py "print" ∨
        row.form = py "direct" ∧ o.type = py "simulator" ∨
        row.form = py "indexed" ∧ o.type = py "simulator" := by decide +kernel
    have hfo := hform row hr
    rw [ho] at hfo
    simp only [Option.any_some, decide_eq_true_eq] at hfo
    have fin : ∀ f : Form, f.Row row.form → f.Instance row.pat c → f.Suits o.type →
        ∃ x i, construct cls x = .ok i ∧ i.value = c := by
      intro f h1 h2 h3
      obtain ⟨-, i, h4, h5⟩ := C98_conversely row hr hm c hfit f h1 hx h2 cls sig hc o ho h3
      exact ⟨_, i, h4, h5⟩
    rcases hfo with ⟨h1, h2⟩ | h | ⟨h1, h2⟩ | ⟨h1, h2⟩ | ⟨h1, h2⟩ | ⟨h1, h2⟩
    · exact fin (.masked (fieldAt 's' row.pat c) (fieldAt 'm' row.pat c)) h1 ⟨hfix, rfl, rfl⟩ h2
    · refine fin (.unmasked (fieldAt 's' row.pat c) (fieldAt 'a' row.pat c) (fieldAt 'b' row.pat c)
        (fieldAt 'c' row.pat c)) ?_ ⟨hfix, rfl, rfl, rfl, rfl⟩ ?_
      · rcases h with h | h
        · exact Or.inl h.1
        · exact Or.inr h.1
      · rcases h with h | h
        · exact Or.inl h.2
        · exact Or.inr h.2
    · exact fin (.peripheral (fieldAt 'p' row.pat c)) h1 ⟨hfix, rfl⟩ h2
    · exact fin (.print (fieldAt 's' row.pat c) (fieldAt 'a' row.pat c) (fieldAt 'b' row.pat c)
        (fieldAt 'c' row.pat c)) h1 ⟨hfix, rfl, rfl, rfl, rfl⟩ h2
    · exact fin (.simulator 0) (Or.inl ⟨rfl, h1⟩) hfix h2
    · exact fin (.simulator 1) (Or.inr ⟨rfl, h1⟩) hfix h2

/-- C190: the instructions of Table II are those that have a class, and every one has only one. -/
theorem C190_mnemonics_partial (m : Str) :
    ((∃ p, (m, p) ∈ tableIIForms) ↔ ∃ cls sig, dget CLASSES cls = some (m, sig)) ∧
    ∀ cls cls' sig sig', dget CLASSES cls = some (m, sig) → dget CLASSES cls' = some (m, sig') →
      cls = cls' := by
  have h1 : ∀ q ∈ tableIIForms, ∃ p ∈ CLASSES, p.2.1 = q.1 ∧ dget CLASSES p.1 = some p.2 := by
    decide +kernel
  have h2 : ∀ p ∈ CLASSES, ∃ q ∈ tableIIForms, q.1 = p.2.1 := by decide +kernel
  have h3 : ∀ p ∈ CLASSES, ∀ q ∈ CLASSES, p.2.1 = q.2.1 → p.1 = q.1 := by decide +kernel
  refine ⟨⟨?_, ?_⟩, ?_⟩
  · rintro ⟨p, hp⟩
    obtain ⟨q, hq, e, hd⟩ := h1 _ hp
    exact ⟨q.1, q.2.2, by rw [hd]; simp only at e; rw [← e]⟩
  · rintro ⟨cls, sig, h⟩
    obtain ⟨q, hq, e⟩ := h2 _ (dget_mem h)
    exact ⟨q.2, by simp only at e; rw [← e]; exact hq⟩
  · intro cls cls' sig sig' h h'
    exact h3 _ (dget_mem h) _ (dget_mem h') rfl

/-- C190: where nothing is irrelevant every code of the manual can be made; that is everywhere but in
proceed, the three prints and the simulator instruction. -/
theorem C190_complete_partial (cls m : Str) (sig : Sig) (hc : dget CLASSES cls = some (m, sig))
    (hm : m ∉ [py "PR", py "PRA", py "PRD", py "PRO", py "S"]) (c : Int) (h : ManualCode m c) :
    ∃ x i, construct cls x = .ok i ∧ i.value = c := by
  rw [C190_codes_partial cls m sig hc]
  obtain ⟨hfit, p, hp, hfix⟩ := h
  refine ⟨hfit, p, hp, hfix, ?_⟩
  have key : ∀ q ∈ tableIIForms, q.1 ∉ [py "PR", py "PRA", py "PRD", py "PRO", py "S"] → 'x' ∉ q.2 := by
    decide +kernel
  have hx := key _ hp hm
  simp only at hx
  have gen : ∀ (l : List (Char × Int)) (n : Int), (∀ q ∈ l, q.1 ≠ 'x') →
      l.foldl (fun n q => if q.1 = 'x' then 2 * n + q.2 else n) n = n := by
    intro l
    induction l with
    | nil => intro n _; rfl
    | cons q l ih =>
      intro n hq
      rw [List.foldl_cons, if_neg (hq q (by simp))]
      exact ih n fun q' h' => hq q' (by simp [h'])
  exact gen _ 0 fun q hq e => hx (e ▸ (List.of_mem_zip (show (q.1, q.2) ∈ _ from hq)).1)

/-- C190: of the 512 simulator codes of the manual, one for every routine that can be called, only the
two that call the routine at address 7 can be made. -/
theorem C190_simulator_partial (c : Int) :
    ((∃ x i, construct (py "Simulator") x = .ok i ∧ i.value = c) ↔ c = 0o0007 ∨ c = 0o4007) ∧
    (ManualCode (py "S") c ↔ Fits 12 c ∧ c % 8 = 7) := by
  constructor
  · have hs : dget CLASSES (py "Simulator") = some (py "S", .simulator) := by decide +kernel
    rw [C190_codes_partial _ _ _ hs]
    constructor
    · rintro ⟨hfit, p, hp, hfix, hx⟩
      have hp1 : ∀ q ∈ tableIIForms, q.1 = py "S" → q.2 = py "0xxxxxxxx111" ∨ q.2 = py "1xxxxxxxx111" := by
        decide +kernel
      rcases hp1 _ hp rfl with e | e <;> simp only at e <;> subst e
      · have h1 := (simulator_fixed hfit).1.1 hfix
        rw [(simulator_fixed hfit).2.2.1 hfix] at hx
        left; omega
      · have h1 := (simulator_fixed hfit).2.1.1 hfix
        rw [(simulator_fixed hfit).2.2.2 hfix] at hx
        right; omega
    · rintro (rfl | rfl)
      · exact ⟨by decide, py "0xxxxxxxx111", by decide +kernel, by decide +kernel, by decide +kernel⟩
      · exact ⟨by decide, py "1xxxxxxxx111", by decide +kernel, by decide +kernel, by decide +kernel⟩
  · have hp1 : ∀ q ∈ tableIIForms, q.1 = py "S" → q.2 = py "0xxxxxxxx111" ∨ q.2 = py "1xxxxxxxx111" := by
      decide +kernel
    constructor
    · rintro ⟨hfit, p, hp, hfix⟩
      refine ⟨hfit, ?_⟩
      rcases hp1 _ hp rfl with e | e <;> simp only at e <;> subst e
      · exact ((simulator_fixed hfit).1.1 hfix).1
      · exact ((simulator_fixed hfit).2.1.1 hfix).1
    · rintro ⟨hfit, h7⟩
      refine ⟨hfit, ?_⟩
      by_cases h : c < 2048
      · exact ⟨_, by decide +kernel, (simulator_fixed hfit).1.2 ⟨h7, h⟩⟩
      · exact ⟨_, by decide +kernel, (simulator_fixed hfit).2.1.2 ⟨h7, by omega⟩⟩

/-- C190 fails: the simulator instruction for the routine at address octal 17 cannot be made. -/
theorem C190_refuted : ¬ C190_statement := by
  intro h
  obtain ⟨cls, sig, x, i, hc, hx, hv⟩ := h (py "S") 0o0017
    ((C190_simulator_partial _).2.2 ⟨by decide, by decide⟩)
  have e := (C190_mnemonics_partial (py "S")).2 cls (py "Simulator") sig .simulator hc (by decide +kernel)
  subst e
  rcases (C190_simulator_partial _).1.1 ⟨x, i, hx, hv⟩ with h | h <;> exact absurd h (by decide)

/-- The code of a masked subtraction, mask 5. -/
example : ManualCode (py "BS") 0b000101111001 ∧ ManualCodeZero (py "BS") 0b000101111001 ∧
    dget CLASSES (py "BinarySubtract") = some (py "BS", .maskable) :=
  ⟨⟨by decide, py "smmmmm111001", by decide +kernel, by decide +kernel⟩,
    ⟨by decide, py "smmmmm111001", by decide +kernel, by decide +kernel, by decide +kernel⟩,
    by decide +kernel⟩

end H800
