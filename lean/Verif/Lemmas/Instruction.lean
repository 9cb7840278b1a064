import Verif.Model.Instruction
import Verif.Lemmas.Word
import Verif.Spec.Instruction

/-! The instruction constructor, evaluated symbolically. -/

namespace H800

open Spec BitField

theorem optIs_none (P : Int → Prop) : OptIs P none := by intro v h; cases h

theorem optIs_some (P : Int → Prop) (v : Int) : OptIs P (some v) ↔ P v :=
  ⟨fun h => h v rfl, fun h w e => by cases e; exact h⟩

theorem guard_bind {P Q : Prop} [Decidable P] [Decidable Q] {e : PyErr} :
    ((if P then Except.ok () else Except.error e : Py Unit) >>= fun _ =>
      (if Q then Except.ok () else Except.error e : Py Unit)) =
      if P ∧ Q then Except.ok () else Except.error e := by
  by_cases hP : P <;> by_cases hQ : Q <;> simp [hP, hQ]

/-- The legality of a whole construction. -/
def Legal (o : Opcode) (sequence mask a b c paddr : Option Int) : Prop :=
  LegalOperands (o.type = py "maskable") sequence mask a b c paddr ∧ LegalRecord o.b23 o.b7 o.op

instance (M : Prop) [Decidable M] (s m a b c p : Option Int) :
    Decidable (LegalOperands M s m a b c p) := by unfold LegalOperands; infer_instance

instance (x y : Option Int) (z : Int) : Decidable (LegalRecord x y z) := by
  unfold LegalRecord; infer_instance

instance (o : Opcode) (s m a b c p : Option Int) : Decidable (Legal o s m a b c p) := by
  unfold Legal; infer_instance

/-- A check is ok or a ValueError. -/
def VE (r : Py Unit) : Prop := r = .ok () ∨ r = .error .valueError

theorem ve_bind {r : Py Unit} {f : Unit → Py Unit} (hr : VE r) (hf : VE (f ())) :
    VE (r >>= f) ∧ ((r >>= f) = .ok () ↔ r = .ok () ∧ f () = .ok ()) := by
  rcases hr with rfl | rfl
  · simpa using hf
  · simp [VE]

theorem checkSequence_ok (s p : Option Int) : VE (Instruction.checkSequence s p) ∧
    (Instruction.checkSequence s p = .ok () ↔
      OptIs (fun v => Bit v ∧ (p = none ∨ p = some 0)) s) := by
  unfold Instruction.checkSequence VE
  cases s with
  | none => simp [optIs_none]
  | some v =>
    rw [optIs_some]
    cases p with
    | none => simp [Instruction.truthy, Instruction.notBool, Bit]; omega
    | some q =>
      by_cases hq : q = 0
      · simp [Instruction.truthy, Instruction.notBool, Bit, hq]; omega
      · simp [Instruction.truthy, hq]

theorem checkMask_ok (t : Str) (m a b c p : Option Int) : VE (Instruction.checkMask t m a b c p) ∧
    (Instruction.checkMask t m a b c p = .ok () ↔
      OptIs (fun v => t = py "maskable" ∧ a = none ∧ b = none ∧ c = none ∧ p = none ∧ Fits 5 v)
        m) := by
  unfold Instruction.checkMask VE
  cases m with
  | none => simp [optIs_none]
  | some v =>
    rw [optIs_some]
    simp only
    by_cases h1 : t = py "maskable"
    · rw [if_neg (not_not.2 h1)]
      by_cases h2 : a.isSome = true ∨ b.isSome = true ∨ c.isSome = true ∨ p.isSome = true
      · rw [if_pos h2]
        refine ⟨Or.inr rfl, ?_⟩
        constructor
        · intro h; cases h
        · rintro ⟨-, rfl, rfl, rfl, rfl, -⟩; simp at h2
      · rw [if_neg h2]
        simp only [not_or, Bool.not_eq_true, Option.isSome_eq_false_iff, Option.isNone_iff_eq_none]
          at h2
        by_cases h3 : v < 0 ∨ v > 31
        · rw [if_pos h3]
          refine ⟨Or.inr rfl, ?_⟩
          constructor
          · intro h; cases h
          · rintro ⟨-, -, -, -, -, h⟩; unfold Fits at h; omega
        · rw [if_neg h3]
          refine ⟨Or.inl rfl, fun _ => ⟨h1, h2.1, h2.2.1, h2.2.2.1, h2.2.2.2, ?_⟩, fun _ => rfl⟩
          unfold Fits; omega
    · rw [if_pos h1]
      simp [h1]

theorem checkBit_ok (x : Option Int) : VE (Instruction.checkBit x) ∧
    (Instruction.checkBit x = .ok () ↔ OptIs Bit x) := by
  unfold Instruction.checkBit VE
  cases x with
  | none => simp [optIs_none]
  | some v =>
    rw [optIs_some]
    by_cases h : v = 0 ∨ v = 1 <;> simp [Instruction.notBool, Bit, h]

theorem checkPaddr_ok (s m a b c p : Option Int) : VE (Instruction.checkPaddr s m a b c p) ∧
    (Instruction.checkPaddr s m a b c p = .ok () ↔
      OptIs (fun v => s = none ∧ m = none ∧ a = none ∧ b = none ∧ c = none ∧ Fits 6 v) p) := by
  unfold Instruction.checkPaddr VE
  cases p with
  | none => simp [optIs_none]
  | some v =>
    rw [optIs_some]
    simp only
    by_cases h2 : s.isSome = true ∨ m.isSome = true ∨ a.isSome = true ∨ b.isSome = true ∨
        c.isSome = true
    · rw [if_pos h2]
      refine ⟨Or.inr rfl, ?_⟩
      constructor
      · intro h; cases h
      · rintro ⟨rfl, rfl, rfl, rfl, rfl, -⟩; simp at h2
    · rw [if_neg h2]
      simp only [not_or, Bool.not_eq_true, Option.isSome_eq_false_iff, Option.isNone_iff_eq_none]
        at h2
      by_cases h3 : v < 0 ∨ v > 63
      · rw [if_pos h3]
        refine ⟨Or.inr rfl, ?_⟩
        constructor
        · intro h; cases h
        · rintro ⟨-, -, -, -, -, h⟩; unfold Fits at h; omega
      · rw [if_neg h3]
        refine ⟨Or.inl rfl, fun _ => ⟨h2.1, h2.2.1, h2.2.2.1, h2.2.2.2.1, h2.2.2.2.2, ?_⟩,
          fun _ => rfl⟩
        unfold Fits; omega

theorem checkOpt_ok (x : Option Int) (n : Nat) (l : Int) (hl : l = 2 ^ n - 1) :
    VE (Instruction.checkOpt x l) ∧ (Instruction.checkOpt x l = .ok () ↔ OptIs (Fits n) x) := by
  unfold Instruction.checkOpt VE
  cases x with
  | none => simp [optIs_none]
  | some v =>
    rw [optIs_some]
    simp only
    by_cases h : v < 0 ∨ v > l
    · rw [if_pos h]
      refine ⟨Or.inr rfl, ?_⟩
      constructor
      · intro h; cases h
      · intro h'; unfold Fits at h'; omega
    · rw [if_neg h]
      refine ⟨Or.inl rfl, fun _ => ?_, fun _ => rfl⟩
      unfold Fits; omega

theorem checkOp_ok (x : Int) : VE (Instruction.checkOp x) ∧
    (Instruction.checkOp x = .ok () ↔ Fits 5 x) := by
  unfold Instruction.checkOp VE
  by_cases h : x < 0 ∨ x > 31
  · rw [if_pos h]
    refine ⟨Or.inr rfl, ?_⟩
    constructor
    · intro h; cases h
    · intro h'; unfold Fits at h'; omega
  · rw [if_neg h]
    refine ⟨Or.inl rfl, fun _ => ?_, fun _ => rfl⟩
    unfold Fits; omega

theorem check_eq (o : Opcode) (s m a b c p : Option Int) :
    Instruction.check o s m a b c p =
      if Legal o s m a b c p then .ok () else .error .valueError := by
  have h9 := checkOp_ok o.op
  have k8 := checkOpt_ok o.b23 2 3 (by norm_num)
  have k7 := checkOpt_ok o.b7 1 1 (by norm_num)
  have k6 := checkPaddr_ok s m a b c p
  have k5 := checkBit_ok c
  have k4 := checkBit_ok b
  have k3 := checkBit_ok a
  have k2 := checkMask_ok o.type m a b c p
  have k1 := checkSequence_ok s p
  have h8 := ve_bind (f := fun _ => Instruction.checkOp o.op) k8.1 h9.1
  have h7 := ve_bind (f := fun _ => _) k7.1 h8.1
  have h6 := ve_bind (f := fun _ => _) k6.1 h7.1
  have h5 := ve_bind (f := fun _ => _) k5.1 h6.1
  have h4 := ve_bind (f := fun _ => _) k4.1 h5.1
  have h3 := ve_bind (f := fun _ => _) k3.1 h4.1
  have h2 := ve_bind (f := fun _ => _) k2.1 h3.1
  have h1 := ve_bind (f := fun _ => _) k1.1 h2.1
  have hc : Instruction.check o s m a b c p = .ok () ↔ Legal o s m a b c p := by
    unfold Instruction.check
    rw [h1.2, h2.2, h3.2, h4.2, h5.2, h6.2, h7.2, h8.2, k1.2, k2.2, k3.2, k4.2, k5.2, k6.2, k7.2,
      k8.2, h9.2]
    unfold Legal LegalOperands LegalRecord
    constructor
    · rintro ⟨q1, q2, q3, q4, q5, q6, q7, q8, q9⟩
      exact ⟨⟨fun v hv => (q1 v hv).1, q3, q4, q5, q2, q6⟩, q8, q7, q9⟩
    · rintro ⟨⟨q1, q3, q4, q5, q2, q6⟩, q8, q7, q9⟩
      refine ⟨fun v hv => ⟨q1 v hv, ?_⟩, q2, q3, q4, q5, q6, q7, q8, q9⟩
      cases p with
      | none => left; rfl
      | some w => have := (q6 w rfl).1; rw [hv] at this; cases this
  by_cases hL : Legal o s m a b c p
  · rw [if_pos hL]; exact hc.2 hL
  · rw [if_neg hL]
    have hv : VE (Instruction.check o s m a b c p) := h1.1
    rcases hv with h | h
    · exact absurd (hc.1 h) hL
    · exact h

/-- The 12-bit field with top six bits `t`, bit 7 `q` and low five bits `r`. -/
def mkI (t q r : Int) : BitField := ⟨12, t * 64 + q * 32 + r, .msb1, .msbLeft⟩

theorem mkI_fits {t q r : Int} (ht : Fits 6 t) (hq : Fits 1 q) (hr : Fits 5 r) :
    Fits 12 (t * 64 + q * 32 + r) := by
  unfold Fits at *; norm_num at *; omega

/-- Writing bit `i` (2..6) or bit 1. -/
theorem mkI_bit (t q r x : Int) (i : Int) (k : Nat) (hk : k < 6) (hi : i + k = 6)
    (ht : Fits 6 t) (hq : Fits 1 q) (hr : Fits 5 r) (hx : Fits 1 x) :
    (mkI t q r).assign (.idx i) x = .ok (mkI (putField t k 1 x) q r) := by
  have h := msb1_setbit 12 (t * 64 + q * 32 + r) x i (k + 6) (by push_cast; omega) (by omega)
    (mkI_fits ht hq hr) hx
  unfold mkI
  rw [assign_ok h]
  congr 2
  unfold putField field Fits at *
  have h1 : (t * 64 + q * 32 + r) / 2 ^ (k + 6) = t / 2 ^ k := by
    rw [pow_add, mul_comm ((2:Int) ^ k), ← Int.ediv_ediv_of_nonneg (by norm_num)]
    congr 1
    norm_num at *; omega
  rw [h1, pow_add]
  ring

theorem mkI_slice (t q r x : Int) (s e : Int) (k n : Nat) (hn : 1 ≤ n) (hk : k + n ≤ 6)
    (hs : s + k + n = 7) (he : e + k = 6) (ht : Fits 6 t) (hq : Fits 1 q) (hr : Fits 5 r)
    (hx : Fits n x) :
    (mkI t q r).assign (.slice (some s) (some e)) x = .ok (mkI (putField t k n x) q r) := by
  have h := msb1_set 12 (t * 64 + q * 32 + r) x s e (k + 6) n hn (by push_cast; omega)
    (by push_cast; omega) (by omega) (mkI_fits ht hq hr) hx
  unfold mkI
  rw [assign_ok h]
  congr 2
  unfold putField field Fits at *
  have h1 : (t * 64 + q * 32 + r) / 2 ^ (k + 6) = t / 2 ^ k := by
    rw [pow_add, mul_comm ((2:Int) ^ k), ← Int.ediv_ediv_of_nonneg (by norm_num)]
    congr 1
    norm_num at *; omega
  rw [h1, pow_add]
  ring

theorem mkI_bit7 (t q r x : Int) (ht : Fits 6 t) (hq : Fits 1 q) (hr : Fits 5 r) (hx : Fits 1 x) :
    (mkI t q r).assign (.idx 7) x = .ok (mkI t x r) := by
  have h := msb1_setbit 12 (t * 64 + q * 32 + r) x 7 5 (by norm_num) (by omega)
    (mkI_fits ht hq hr) hx
  unfold mkI
  rw [assign_ok h]
  congr 2
  unfold putField field Fits at *
  norm_num at * ; omega

theorem mkI_op (t q r x : Int) (ht : Fits 6 t) (hq : Fits 1 q) (hr : Fits 5 r) (hx : Fits 5 x) :
    (mkI t q r).assign (.slice (some 8) (some 12)) x = .ok (mkI t q x) := by
  have h := msb1_set 12 (t * 64 + q * 32 + r) x 8 12 0 5 (by norm_num) (by norm_num) (by norm_num)
    (by omega) (mkI_fits ht hq hr) hx
  unfold mkI
  rw [assign_ok h]
  congr 2
  unfold putField field Fits at *
  norm_num at * ; omega

theorem putField_fits6 {t x : Int} {k n : Nat} (hk : k + n ≤ 6) (ht : Fits 6 t) (hx : Fits n x) :
    Fits 6 (putField t k n x) := putField_fits' 6 k n t x hk ht hx

/-- The value the constructor computes for legal operands: the top six bits. -/
def topBits (b23 s m a b c p : Option Int) : Int :=
  match p with
  | some p => p
  | none =>
    match m with
    | some m => s.getD 0 * 32 + m
    | none => s.getD 0 * 32 + b23.getD 0 * 8 + a.getD 0 * 4 + b.getD 0 * 2 + c.getD 0

/-- Bit 7 of the constructed instruction. -/
def bit7Of (o : Opcode) (m : Option Int) : Int :=
  if Instruction.usesBit7 o.type m then o.b7.getD 0 else 0

theorem optBit {x : Option Int} (h : OptIs Bit x) : Bit (x.getD 0) := by
  cases x with
  | none => left; rfl
  | some v => exact h v rfl

theorem getD_fits {x : Option Int} {n : Nat} (h : OptIs (Fits n) x) : Fits n (x.getD 0) := by
  cases x with
  | none => exact ⟨le_refl _, by positivity⟩
  | some v => exact h v rfl

theorem oneIf_bit {x : Int} (h : Bit x) : Instruction.oneIf x = x := by
  rcases h with rfl | rfl <;> rfl

theorem bit_fits {x : Int} (h : Bit x) : Fits 1 x := by
  rcases h with rfl | rfl <;> decide

/-- An optional bit write into a zero bit adds its weight. -/
theorem assignOpt_bit (t q r : Int) (x : Option Int) (i : Int) (k : Nat) (hk : k < 6)
    (hi : i + k = 6) (ht : Fits 6 t) (hq : Fits 1 q) (hr : Fits 5 r) (hx : OptIs Bit x)
    (hz : field t k 1 = 0) :
    Instruction.assignOpt (mkI t q r) (.idx i) x = .ok (mkI (t + x.getD 0 * 2 ^ k) q r) ∧
      Fits 6 (t + x.getD 0 * 2 ^ k) := by
  have hp : ∀ v, putField t k 1 v = t + v * 2 ^ k := by
    intro v; unfold putField; rw [hz]; ring
  cases x with
  | none => simpa [Instruction.assignOpt] using ht
  | some v =>
    have hv : Fits 1 v := bit_fits (hx v rfl)
    constructor
    · simp only [Instruction.assignOpt, Option.getD_some]
      rw [mkI_bit t q r v i k hk hi ht hq hr hv, hp]
    · rw [Option.getD_some, ← hp]
      exact putField_fits6 (by omega) ht hv

theorem map_oneIf {x : Option Int} (h : OptIs Bit x) : x.map Instruction.oneIf = x := by
  cases x with
  | none => rfl
  | some v => simp only [Option.map_some, oneIf_bit (h v rfl)]

theorem init12 : BitField.init 0 12 3 0 = .ok (mkI 0 0 0) := by decide

theorem assignOpt_none (d : BitField) (k : Key) : Instruction.assignOpt d k none = .ok d := rfl

/-- The constructor: legal operands give the value of the layout, anything else a ValueError. -/
theorem init_exact (o : Opcode) (s m a b c p : Option Int) :
    Instruction.init o s m a b c p =
      if Legal o s m a b c p then
        .ok ⟨o, mkI (topBits o.b23 s m a b c p) (bit7Of o m) o.op⟩
      else .error .valueError := by
  unfold Instruction.init
  rw [init12]
  simp only [py_bind_ok]
  rw [check_eq]
  by_cases hL : Legal o s m a b c p
  swap
  · rw [if_neg hL, if_neg hL]; rfl
  rw [if_pos hL, if_pos hL]
  obtain ⟨⟨hs, ha, hb, hc, hm, hp⟩, h23, h7, hop⟩ := hL
  have z6 : Fits 6 0 := by decide
  have z1 : Fits 1 0 := by decide
  have z5 : Fits 5 0 := by decide
  simp only [py_bind_ok]
  obtain ⟨e1, f1⟩ := assignOpt_bit 0 0 0 s 1 5 (by decide) (by decide) z6 z1 z5 hs (by decide)
  rw [e1]
  simp only [py_bind_ok]
  have hs2 := optBit hs
  have ha2 := optBit ha
  have hb2 := optBit hb
  have hc2 := optBit hc
  have hh := getD_fits h23
  have hq := getD_fits h7
  rw [zero_add] at *
  have e2 : Instruction.writeBit7 (mkI (s.getD 0 * 2 ^ 5) 0 0) o m =
      .ok (mkI (s.getD 0 * 2 ^ 5) (bit7Of o m) 0) := by
    unfold bit7Of Instruction.writeBit7
    by_cases hu : Instruction.usesBit7 o.type m = true
    · rw [if_pos hu, if_pos hu]
      cases h7v : o.b7 with
      | none => rfl
      | some v =>
        simp only [Instruction.assignOpt, Option.getD_some]
        exact mkI_bit7 _ _ _ _ f1 z1 z5 (h7 v h7v)
    · rw [if_neg hu, if_neg hu]
  have q1 : Fits 1 (bit7Of o m) := by
    unfold bit7Of; split
    · exact hq
    · exact z1
  rw [e2]
  simp only [py_bind_ok, map_oneIf ha, map_oneIf hb, map_oneIf hc]
  generalize bit7Of o m = q at q1
  cases p with
  | some pv =>
    obtain ⟨rfl, rfl, rfl, rfl, rfl, hpf⟩ := hp pv rfl
    have e3 : ∃ t, Fits 6 t ∧ Instruction.assignOpt (mkI (Option.getD none 0 * 2 ^ 5) q 0)
        (.slice (some 2) (some 3)) o.b23 = .ok (mkI t q 0) := by
      cases h : o.b23 with
      | none => exact ⟨_, f1, rfl⟩
      | some v =>
        exact ⟨_, putField_fits6 (by decide) f1 (h23 v h),
          mkI_slice _ _ _ _ 2 3 3 2 (by decide) (by decide) (by decide) (by decide) f1 q1 z5
            (h23 v h)⟩
    obtain ⟨t, ft, e3⟩ := e3
    simp only [Instruction.writeMask]
    rw [e3]
    simp only [py_bind_ok, assignOpt_none]
    have e4 : Instruction.assignOpt (mkI t q 0) (.slice (some 1) (some 6)) (some pv)
        = .ok (mkI pv q 0) := by
      simp only [Instruction.assignOpt]
      rw [mkI_slice _ _ _ _ 1 6 0 6 (by decide) (by decide) (by decide) (by decide) ft q1 z5 hpf]
      congr 2
      unfold putField field Fits at *; norm_num at *; omega
    rw [e4]
    simp only [py_bind_ok]
    rw [mkI_op _ _ _ _ hpf q1 z5 hop]
    rfl
  | none =>
    simp only [assignOpt_none, py_bind_ok]
    cases m with
    | some mv =>
      obtain ⟨-, rfl, rfl, rfl, -, hmf⟩ := hm mv rfl
      have e3 := mkI_slice _ q 0 mv 2 6 0 5 (by decide) (by decide) (by decide) (by decide) f1 q1 z5
        hmf
      have e3' : putField (s.getD 0 * 2 ^ 5) 0 5 mv = s.getD 0 * 32 + mv := by
        unfold putField field Fits Bit at *; norm_num at *
      have f3 : Fits 6 (s.getD 0 * 32 + mv) := by
        rw [← e3']; exact putField_fits6 (by decide) f1 hmf
      rw [e3'] at e3
      simp only [Instruction.writeMask]
      rw [e3]
      simp only [py_bind_ok, assignOpt_none]
      rw [mkI_op _ _ _ _ f3 q1 z5 hop]
      rfl
    | none =>
      have e3 : Instruction.assignOpt (mkI (s.getD 0 * 2 ^ 5) q 0) (.slice (some 2) (some 3)) o.b23
          = .ok (mkI (s.getD 0 * 32 + o.b23.getD 0 * 8) q 0) := by
        cases h : o.b23 with
        | none => simp only [Instruction.assignOpt, Option.getD_none]; congr 2; ring
        | some v =>
          have hv := h23 v h
          simp only [Instruction.assignOpt, Option.getD_some]
          rw [mkI_slice _ q 0 v 2 3 3 2 (by decide) (by decide) (by decide) (by decide) f1 q1 z5 hv]
          congr 2
          unfold putField field Fits Bit at *; norm_num at *; omega
      generalize hsv : s.getD 0 = sv at *
      generalize hhv : o.b23.getD 0 = hv at *
      have f3 : Fits 6 (sv * 32 + hv * 8) := by
        unfold Fits Bit at *; norm_num at *; omega
      simp only [Instruction.writeMask]
      rw [e3]
      simp only [py_bind_ok]
      obtain ⟨e4, f4⟩ := assignOpt_bit _ q 0 a 4 2 (by decide) (by decide) f3 q1 z5 ha
        (by unfold field Fits Bit at *; norm_num at *; omega)
      rw [e4]
      simp only [py_bind_ok]
      obtain ⟨e5, f5⟩ := assignOpt_bit _ q 0 b 5 1 (by decide) (by decide) f4 q1 z5 hb
        (by unfold field Fits Bit at *; norm_num at *; omega)
      rw [e5]
      simp only [py_bind_ok]
      obtain ⟨e6, f6⟩ := assignOpt_bit _ q 0 c 6 0 (by decide) (by decide) f5 q1 z5 hc
        (by unfold field Fits Bit at *; norm_num at *; omega)
      rw [e6]
      simp only [py_bind_ok]
      rw [mkI_op _ _ _ _ f6 q1 z5 hop]
      simp only [py_bind_ok, py_pure, topBits, hsv, hhv]
      congr 3
      ring

end H800
