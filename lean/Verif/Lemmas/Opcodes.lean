import Verif.Model.Opcodes
import Verif.Lemmas.Instruction
import Verif.Lemmas.Dict
import Verif.Spec.Form

/-! Facts about the opcode tables. Each is a check of the whole table, lifted to all keys. -/

namespace H800

open Spec

/-- What holds of every row of the opcode table. -/
def RowOk (p : Str × Opcode) : Prop :=
  p.2.m = p.1 ∧ LegalRecord p.2.b23 p.2.b7 p.2.op ∧
  (p.2.type = py "maskable" ∧ p.2.b23.isSome ∧ p.2.b7 = some 1 ∨
   p.2.type = py "unmasked" ∧ p.2.b23.isSome ∧ p.2.b7 = some 0 ∨
   p.2.type = py "peripheral" ∧ p.2.b23 = none ∧ p.2.b7 = some 1 ∨
   p.2.type = py "print" ∧ p.2.b23 = none ∧ p.2.b7 = some 1 ∨
   p.2.type = py "simulator" ∧ p.2.b23 = none ∧ p.2.b7 = none ∧ p.2.op = 7)

instance (p : Str × Opcode) : Decidable (RowOk p) := by unfold RowOk; infer_instance

theorem rows_ok : ∀ p ∈ OPCODES, RowOk p := by decide +kernel

theorem row_ok {m : Str} {o : Opcode} (h : dget OPCODES m = some o) : RowOk (m, o) :=
  rows_ok _ (dget_mem h)

/-- Rows with the same low five bits and the same bits 2-3 are the same row, or NA and FNN, or two
of the print rows. -/
theorem sep_unmasked : ∀ p ∈ OPCODES, ∀ p' ∈ OPCODES, p.2.op = p'.2.op → p.2.b23 = p'.2.b23 →
    p.2.b23.isSome →
    p = p' ∨ (p.1 = py "NA" ∧ p'.1 = py "FNN") ∨ (p.1 = py "FNN" ∧ p'.1 = py "NA") := by
  decide +kernel

theorem sep_masked : ∀ p ∈ OPCODES, ∀ p' ∈ OPCODES, p.2.op = p'.2.op → p.2.b7 = some 1 →
    p'.2.b7 = some 1 → p = p' ∨ (p.2.type = py "print" ∧ p'.2.type = py "print") := by
  decide +kernel

theorem sep_simulator : ∀ p ∈ OPCODES, p.2.op = 7 → p.1 = py "S" := by
  decide +kernel

theorem print_rows : ∀ p ∈ OPCODES, p.2.type = py "print" →
    (p.1 = py "PRA" ∨ p.1 = py "PRD" ∨ p.1 = py "PRO") ∧ p.2.op = 6 := by
  decide +kernel

/-- The top six bits of a form. -/
def formTop (h : Int) : Form → Int
  | .masked s m => s * 32 + m
  | .unmasked s a b c => s * 32 + h * 8 + a * 4 + b * 2 + c
  | .peripheral p => p
  | .print s a b c => s * 32 + a * 4 + b * 2 + c
  | .simulator s => s * 32

/-- Whether a form sets bit 7. -/
def formFlag : Form → Int
  | .masked _ _ | .peripheral _ | .print _ _ _ _ => 1
  | .unmasked _ _ _ _ | .simulator _ => 0

theorem form_parts {f : Form} {h q op : Int} (hf : f.InRange) (_hh : Fits 2 h)
    (hq : formFlag f = 1 → q = 1) (hop : Fits 5 op) :
    f.code h q op / 64 = formTop h f ∧ f.code h q op / 32 % 2 = formFlag f ∧
      f.code h q op % 32 = op := by
  cases f with
  | masked s m =>
    have := hq rfl; subst this
    obtain ⟨h1, h2⟩ := hf
    simp only [Form.code, maskedCode, formTop, formFlag]
    unfold Fits Bit at *; norm_num at *; omega
  | unmasked s a b c =>
    obtain ⟨h1, h2, h3, h4⟩ := hf
    simp only [Form.code, unmaskedCode, formTop, formFlag]
    unfold Fits Bit at *; norm_num at *; omega
  | peripheral p =>
    have := hq rfl; subst this
    have hf : Fits 6 p := hf
    simp only [Form.code, peripheralCode, formTop, formFlag]
    unfold Fits at *; norm_num at *; omega
  | print s a b c =>
    have := hq rfl; subst this
    obtain ⟨h1, h2, h3, h4⟩ := hf
    simp only [Form.code, printCode, formTop, formFlag]
    unfold Fits Bit at *; norm_num at *; omega
  | simulator s =>
    have hf : Bit s := hf
    simp only [Form.code, simulatorCode, formTop, formFlag]
    unfold Fits Bit at *; norm_num at *; omega

theorem flag_b7 {m : Str} {o : Opcode} {f : Form} (ho : dget OPCODES m = some o)
    (hs : f.Suits o.type) : formFlag f = 1 → o.b7 = some 1 := by
  obtain ⟨-, -, hty⟩ := row_ok ho
  simp only at hty
  intro hfl
  cases f <;> simp only [formFlag, Form.Suits] at hfl hs <;>
    first
    | (exact absurd hfl (by decide))
    | (rcases hty with h | h | h | h | h <;> simp_all)

theorem type_of_op7 {k : Str} {q : Opcode} (hk : dget OPCODES k = some q) (hq : q.op = 7) :
    q.type = py "simulator" := by
  have : ∀ p ∈ OPCODES, p.2.op = 7 → p.2.type = py "simulator" := by decide +kernel
  exact this _ (dget_mem hk) hq

theorem op_of_simulator {k : Str} {q : Opcode} (hk : dget OPCODES k = some q)
    (hq : q.type = py "simulator") : q.op = 7 := by
  have : ∀ p ∈ OPCODES, p.2.type = py "simulator" → p.2.op = 7 := by decide +kernel
  exact this _ (dget_mem hk) hq

theorem b23_of_unmasked {k : Str} {q : Opcode} (hk : dget OPCODES k = some q)
    (hq : q.type = py "maskable" ∨ q.type = py "unmasked") : ∃ v, q.b23 = some v := by
  have : ∀ p ∈ OPCODES, (p.2.type = py "maskable" ∨ p.2.type = py "unmasked") →
    p.2.b23.isSome := by decide +kernel
  exact Option.isSome_iff_exists.1 (this _ (dget_mem hk) hq)

theorem unmasked_top {s a b c s' a' b' c' v v' : Int} (q1 : Bit s) (q2 : Bit a) (q3 : Bit b)
    (q4 : Bit c) (q1' : Bit s') (q2' : Bit a') (q3' : Bit b') (q4' : Bit c') (g : Fits 2 v)
    (g' : Fits 2 v') (h : s * 32 + v * 8 + a * 4 + b * 2 + c = s' * 32 + v' * 8 + a' * 4 + b' * 2 + c') :
    s = s' ∧ v = v' ∧ a = a' ∧ b = b' ∧ c = c' := by
  have h0 : ∀ {x : Int}, Bit x → 0 ≤ x ∧ x ≤ 1 := by intro x hx; unfold Bit at hx; omega
  have := h0 q1; have := h0 q2; have := h0 q3; have := h0 q4
  have := h0 q1'; have := h0 q2'; have := h0 q3'; have := h0 q4'
  clear q1 q2 q3 q4 q1' q2' q3' q4' h0
  unfold Fits at *
  norm_num at *
  omega

theorem clash_fields {f : Form} {k k' : Str} {q q' : Opcode} (hk : dget OPCODES k = some q)
    (hk' : dget OPCODES k' = some q') (hcl : Clash f k k') : q.op = q'.op ∧ q.b23 = q'.b23 ∧
      (q.b7 = q'.b7 ∨ ∃ s a b c, f = .unmasked s a b c) := by
  rcases hcl with ⟨c1, c2⟩ | ⟨hu, c⟩
  · have t : ∀ p ∈ OPCODES, p.1 ∈ [py "PRA", py "PRD", py "PRO"] →
        p.2.op = 6 ∧ p.2.b23 = none ∧ p.2.b7 = some 1 := by decide +kernel
    obtain ⟨u1, u2, u3⟩ := t _ (dget_mem hk) c1
    obtain ⟨w1, w2, w3⟩ := t _ (dget_mem hk') c2
    exact ⟨u1.trans w1.symm, u2.trans w2.symm, Or.inl (u3.trans w3.symm)⟩
  · have t : ∀ p ∈ OPCODES, (p.1 = py "NA" ∨ p.1 = py "FNN") →
        p.2.op = 12 ∧ p.2.b23 = some 2 := by decide +kernel
    obtain ⟨u1, u2⟩ := t _ (dget_mem hk) (by rcases c with c | c <;> simp [c.1])
    obtain ⟨w1, w2⟩ := t _ (dget_mem hk') (by rcases c with c | c <;> simp [c.2])
    exact ⟨u1.trans w1.symm, u2.trans w2.symm, Or.inr hu⟩

end H800
