import Verif.Lemmas.Operands
import Verif.Props.Values
import Verif.Props.Calls

/-!
Property C220: operands of instructions that are not ints.
-/

namespace H800

open Spec

/-- C220 as stated: an instruction, of any opcode, is made only of ints (and None where an operand is
left out). -/
def C220_statement : Prop := ∀ (F : FloatOps) (o : Opcode) (x : ArgsV), ¬ AllInts x →
  ∃ e, Instruction.initV F o x = .error e

/-- C220 is false: the address bits take the floats 0.0 and 1.0, and the sequence bit takes 0.0; but it
does not take 1.0. -/
theorem C220_refuted : ¬ C220_statement ∧
    constructV exactOps (py "BinaryAdd")
        ⟨some (.float (.fin 0)), none, some (.float (.fin 1)), some (.int 0), some (.float (.fin 0)), none⟩ =
      construct (py "BinaryAdd") { sequence := some 0, a := some 1, b := some 0, c := some 0 } ∧
    (construct (py "BinaryAdd")
      { sequence := some 0, a := some 1, b := some 0, c := some 0 }).map (·.value) = .ok 0o2411 ∧
    constructV exactOps (py "BinaryAdd")
        ⟨some (.float (.fin 1)), none, some (.int 1), some (.int 0), some (.int 0), none⟩ = .error .typeError := by
  refine ⟨fun h => ?_, by decide +kernel, by decide +kernel, by decide +kernel⟩
  obtain ⟨e, he⟩ := h exactOps ⟨py "XX", py "X", some 3, some 1, 31, py "unmasked"⟩
    { a := some (.float (.fin 1)) } (fun hi => by
      obtain ⟨n, hn⟩ := hi _ (Or.inr (Or.inr (Or.inl rfl)))
      cases hn)
  have hm : Meant { a := some (.float (.fin 1)) } { a := some 1 } :=
    ⟨.none, .none, .some (Or.inr ⟨Or.inr rfl, rfl⟩), .none, .none, .none⟩
  rw [Instruction.initV_of exactOps _ hm] at he
  revert he
  have : Instruction.init ⟨py "XX", py "X", some 3, some 1, 31, py "unmasked"⟩ none none (some 1) none none
    none = .ok ⟨⟨py "XX", py "X", some 3, some 1, 31, py "unmasked"⟩, ⟨12, 0o3437, .msb1, .msbLeft⟩⟩ := by
    decide +kernel
  rw [this]
  intro he
  cases he

theorem given_meant (y : Args) : Meant (givenArgs y) y := by
  obtain ⟨s, m, a, b, c, p⟩ := y
  refine ⟨?_, ?_, ?_, ?_, ?_, ?_⟩
  · cases s with
    | none => exact .none
    | some n => exact .some (Or.inl rfl)
  · cases m with
    | none => exact .none
    | some n => exact .some rfl
  · cases a with
    | none => exact .none
    | some n => exact .some (Or.inl rfl)
  · cases b with
    | none => exact .none
    | some n => exact .some (Or.inl rfl)
  · cases c with
    | none => exact .none
    | some n => exact .some (Or.inl rfl)
  · cases p with
    | none => exact .none
    | some n => exact .some rfl

theorem acceptsV_of (sig : Sig) {x : ArgsV} {y : Args} (h : Meant x y) : sig.acceptsV x = sig.accepts y := by
  obtain ⟨xs, xm, xa, xb, xc, xp⟩ := x
  obtain ⟨s, k, a, b, c, p⟩ := y
  obtain ⟨h1, h2, h3, h4, h5, h6⟩ := h
  dsimp only at *
  cases sig <;> simp only [Sig.acceptsV, Sig.accepts, Args.mk.injEq, ArgsV.mk.injEq, true_and, and_true]
  · cases h6 <;> rfl
  · cases h2 <;> cases h6 <;> rfl
  · cases h2 <;> cases h6 <;> rfl
  · cases h1 <;> cases h2 <;> cases h3 <;> cases h4 <;> cases h5 <;> cases h6 <;> simp
  · cases h1 <;> cases h2 <;> cases h3 <;> cases h4 <;> cases h5 <;> simp
  · cases h2 <;> cases h3 <;> cases h4 <;> cases h5 <;> cases h6 <;> simp

/-- A class hands on its operands as they are. -/
theorem constructV_of (F : FloatOps) (cls : Str) {x : ArgsV} {y : Args} (h : Meant x y) :
    constructV F cls x = construct cls y := by
  unfold constructV construct
  cases dget CLASSES cls with
  | none => rfl
  | some r =>
    obtain ⟨m, sig⟩ := r
    simp only [acceptsV_of sig h]
    split
    · rfl
    · cases dgetE OPCODES m with
      | error e => rfl
      | ok o =>
        simp only [py_bind_ok]
        cases sig with
        | maskable =>
          exact Instruction.initV_of F o (y := { y with paddr := none })
            ⟨h.1, h.2, h.3, h.4, h.5, .none⟩
        | unmasked =>
          exact Instruction.initV_of F o (y := { y with mask := none, paddr := none })
            ⟨h.1, .none, h.3, h.4, h.5, .none⟩
        | scientific =>
          exact Instruction.initV_of F o (y := { y with mask := none, paddr := none })
            ⟨h.1, .none, h.3, h.4, h.5, .none⟩
        | proceed => rfl
        | peripheral =>
          exact Instruction.initV_of F o (y := { paddr := y.paddr })
            ⟨.none, .none, .none, .none, .none, h.6⟩
        | simulator =>
          exact Instruction.initV_of F o (y := { sequence := y.sequence })
            ⟨h.1, .none, .none, .none, .none, .none⟩

/-- C220: with ints and None these are the functions of the other properties. -/
theorem C220_agrees (F : FloatOps) :
    (∀ o (y : Args), Instruction.initV F o (givenArgs y) =
      Instruction.init o y.sequence y.mask y.a y.b y.c y.paddr) ∧
    (∀ cls y, constructV F cls (givenArgs y) = construct cls y) ∧
    ∀ cls n, constructConstantV F cls (.int n) = constructConstant cls n := by
  refine ⟨fun o y => Instruction.initV_of F o (given_meant y), fun cls y => constructV_of F cls (given_meant y),
    fun cls n => ?_⟩
  · unfold constructConstantV constructConstant
    cases dget CONSTANT_CLASSES cls with
    | none => rfl
    | some m =>
      unfold Constant.initV Constant.init
      simp only [lt_int, py_bind_ok, decide_eq_true_eq]
      rw [(C214_agrees F).1 n]
      by_cases h1 : n < 0
      · simp [h1]
      · by_cases h2 : 2 ^ 48 - 1 < n
        · simp [h1]
        · simp [h1]

/-- C220: exactly which operands an instruction is made of, and what of. The address bits `a`, `b` and
`c` may be ints or the floats 0.0 and 1.0, the sequence bit an int or 0.0, the mask and the peripheral
address ints only; the instruction is that with the equal ints, or is refused as that is. All else is
refused with a ValueError or a TypeError, whatever the arithmetic of floats. -/
theorem C220_exact_partial (F : FloatOps) (o : Opcode) (x : ArgsV) :
    (∀ y : Args, Meant x y →
      Instruction.initV F o x = Instruction.init o y.sequence y.mask y.a y.b y.c y.paddr) ∧
    ((¬ ∃ y, Meant x y) →
      ∃ e, Instruction.initV F o x = .error e ∧ (e = .valueError ∨ e = .typeError)) := by
  refine ⟨fun y h => Instruction.initV_of F o h, fun h => ?_⟩
  cases hr : Instruction.initV F o x with
  | error e => exact ⟨e, rfl, Instruction.mild_init F o x e hr⟩
  | ok i => exact absurd (Instruction.initV_inv F o hr) h

/-- Concrete cases: a float for an address bit is taken, one for a mask is not. -/
example : Meant { sequence := some (.int 1), a := some (.float (.fin 1)) } { sequence := some 1, a := some 1 } ∧
    (¬ ∃ y, Meant { mask := some (.float (.fin 3)) } y) ∧
    Instruction.initV exactOps ⟨py "BA", py "BinaryAdd", some 2, some 1, 9, py "maskable"⟩
      { sequence := some (.int 1), mask := some (.float (.fin 3)) } = .error .typeError := by
  refine ⟨⟨.some (Or.inl rfl), .none, .some (Or.inr ⟨Or.inr rfl, rfl⟩), .none, .none, .none⟩, ?_,
    by decide +kernel⟩
  rintro ⟨⟨ys, ym, ya, yb, yc, yp⟩, h⟩
  have := h.mask
  dsimp only at this
  cases this with
  | some h' => exact absurd (show PyVal.float (.fin 3) = .int _ from h') (by simp)

/-- C220: no instruction is made twice over: two lists of ints that the same operands are taken for are
the same. -/
theorem C220_one_partial (x : ArgsV) (y y' : Args) (h : Meant x y) (h' : Meant x y') : y = y' := by
  have one : ∀ {R : PyVal → Int → Prop} {v : Option PyVal} {n n' : Option Int},
      (∀ {v n n'}, R v n → R v n' → n = n') → Option.Rel R v n → Option.Rel R v n' → n = n' := by
    intro R v n n' hR h h'
    cases h with
    | none => cases h'; rfl
    | some h =>
      cases h' with
      | some h' => rw [hR h h']
  have hi : ∀ {v n n'}, AsInt v n → AsInt v n' → n = n' := by
    intro v n n' h h'
    rw [h] at h'
    cases h'
    rfl
  have hb : ∀ {v n n'}, AsBit v n → AsBit v n' → n = n' := by
    intro v n n' h h'
    rcases h with rfl | ⟨-, rfl⟩
    · rcases h' with h' | ⟨-, h'⟩
      · cases h'; rfl
      · cases h'
    · rcases h' with h' | ⟨-, h'⟩
      · cases h'
      · simpa using h'
  obtain ⟨s, m, a, b, c, p⟩ := h
  obtain ⟨s', m', a', b', c', p'⟩ := h'
  have e1 := one (R := AsSeq) (fun h h' => hb (Instruction.asSeq_bit h) (Instruction.asSeq_bit h')) s s'
  have e2 := one (R := AsInt) hi m m'
  have e3 := one (R := AsBit) hb a a'
  have e4 := one (R := AsBit) hb b b'
  have e5 := one (R := AsBit) hb c c'
  have e6 := one (R := AsInt) hi p p'
  cases y
  cases y'
  simp only at e1 e2 e3 e4 e5 e6
  simp [*]

/-- C220: the classes of the module do the same with their operands. -/
theorem C220_classes_partial (F : FloatOps) (cls m : Str) (sig : Sig)
    (hc : dget CLASSES cls = some (m, sig)) (x : ArgsV) :
    (∀ y : Args, Meant x y → constructV F cls x = construct cls y) ∧
    ((¬ ∃ y, Meant x y) →
      ∃ e, constructV F cls x = .error e ∧ (e = .valueError ∨ e = .typeError)) := by
  refine ⟨fun y h => constructV_of F cls h, fun h => ?_⟩
  obtain ⟨o, ho⟩ := classes_opcode hc
  unfold constructV
  rw [hc]
  dsimp only
  by_cases hacc : sig.acceptsV x = true
  · rw [if_neg (by simpa using hacc), dgetE_ok.2 ho, py_bind_ok]
    have key := (C220_exact_partial F o x).2 h
    cases sig with
    | maskable =>
      have : x = { x with paddr := none } := by
        have : x.paddr = none := by simpa [Sig.acceptsV] using hacc
        obtain ⟨xs, xm, xa, xb, xc, xp⟩ := x
        cases this; rfl
      rw [← this]; exact key
    | unmasked =>
      have : x = { x with mask := none, paddr := none } := by
        have : x.mask = none ∧ x.paddr = none := by simpa [Sig.acceptsV] using hacc
        obtain ⟨xs, xm, xa, xb, xc, xp⟩ := x
        obtain ⟨h1, h2⟩ := this
        cases h1; cases h2; rfl
      rw [← this]; exact key
    | scientific =>
      have : x = { x with mask := none, paddr := none } := by
        have : x.mask = none ∧ x.paddr = none := by simpa [Sig.acceptsV] using hacc
        obtain ⟨xs, xm, xa, xb, xc, xp⟩ := x
        obtain ⟨h1, h2⟩ := this
        cases h1; cases h2; rfl
      rw [← this]; exact key
    | proceed =>
      have : x = {} := by simpa [Sig.acceptsV] using hacc
      subst this
      exact absurd ⟨{}, .none, .none, .none, .none, .none, .none⟩ h
    | peripheral =>
      have : x = { paddr := x.paddr } := by simpa only [Sig.acceptsV, decide_eq_true_eq] using hacc
      rw [← this]; exact key
    | simulator =>
      have : x = { sequence := x.sequence } := by simpa only [Sig.acceptsV, decide_eq_true_eq] using hacc
      rw [← this]; exact key
  · rw [if_pos hacc]
    exact ⟨_, rfl, Or.inr rfl⟩

/-- C220: a constant is made of an int only. -/
theorem C220_constant_partial (F : FloatOps) (cls m : Str) (hc : dget CONSTANT_CLASSES cls = some m)
    (x : PyVal) (hx : ¬ IsInt x) :
    ∃ e, constructConstantV F cls x = .error e ∧ (e = .valueError ∨ e = .typeError) := by
  unfold constructConstantV
  rw [hc]
  obtain ⟨e, he, hr⟩ := (C214_refused_partial F x hx).1
  dsimp only
  unfold Constant.initV
  cases h1 : x.lt (.int 0) with
  | error e => exact ⟨e, rfl, Or.inr (BitField.lt_refused _ _ _ h1)⟩
  | ok a =>
    rw [py_bind_ok]
    cases a with
    | true => exact ⟨_, rfl, Or.inl rfl⟩
    | false =>
      cases h2 : (PyVal.int (2 ^ 48 - 1)).lt x with
      | error e => exact ⟨e, rfl, Or.inr (BitField.lt_refused _ _ _ h2)⟩
      | ok a =>
        cases a with
        | true => exact ⟨_, rfl, Or.inl rfl⟩
        | false => exact ⟨e, he, hr⟩

/-- Concrete cases: the classes and a constant. -/
example : dget CLASSES (py "Rewind") = some (py "RW", .peripheral) ∧
    constructV exactOps (py "Rewind") { paddr := some (.float (.fin 8)) } = .error .typeError ∧
    constructV exactOps (py "Rewind") { paddr := some (.float (.fin 80)) } = .error .valueError ∧
    constructV exactOps (py "Rewind") { paddr := some (.other true) } = .error .typeError ∧
    constructV exactOps (py "Rewind") { paddr := some (.int 8) } = construct (py "Rewind") { paddr := some 8 } ∧
    dget CONSTANT_CLASSES (py "OctalConstant") = some (py "OCT") ∧
    constructConstantV exactOps (py "OctalConstant") (.float (.fin 8)) = .error .typeError := by
  refine ⟨?_, ?_, ?_, ?_, ?_, ?_, ?_⟩ <;> decide +kernel

end H800
