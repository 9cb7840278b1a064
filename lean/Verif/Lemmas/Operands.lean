import Verif.Spec.Operands
import Verif.Lemmas.Values
import Verif.Lemmas.Instruction

/-!
Lemmas about instructions with operands that are not ints.
-/

namespace H800

open Spec

theorem py_bind_inv {α β : Type} {x : Py α} {f : α → Py β} {b : β} (h : (x >>= f) = .ok b) :
    ∃ a, x = .ok a ∧ f a = .ok b := by
  cases x with
  | error e => cases h
  | ok a => exact ⟨a, rfl, h⟩

/-- All that may be raised is ValueError and TypeError. -/
def Mild {α : Type} (x : Py α) : Prop := ∀ e, x = .error e → BitField.Refused e

theorem Mild.bind {α β : Type} {x : Py α} {f : α → Py β} (hx : Mild x) (hf : ∀ a, Mild (f a)) :
    Mild (x >>= f) := by
  intro e h
  cases x with
  | error e' => cases h; exact hx _ rfl
  | ok a => exact hf a e h

theorem mild_ok {α : Type} (a : α) : Mild (.ok a : Py α) := fun _ h => by cases h

theorem mild_value {α : Type} : Mild (.error .valueError : Py α) := fun _ h => by cases h; exact Or.inl rfl

theorem mild_type {α : Type} : Mild (.error .typeError : Py α) := fun _ h => by cases h; exact Or.inr rfl

theorem mild_lt (v w : PyVal) : Mild (v.lt w) := fun e h => Or.inr (BitField.lt_refused v w e h)

namespace Instruction

theorem truthyV_of {x : Option PyVal} {y : Option Int} (h : Option.Rel AsInt x y) :
    truthyV x = truthy y := by
  cases h with
  | none => rfl
  | some h => cases h; rfl

theorem notBoolV_bit {v : PyVal} {n : Int} (h : AsBit v n) : notBoolV v = decide (notBool n) := by
  rcases h with rfl | ⟨h, rfl⟩
  · unfold notBoolV notBool PyVal.eqInt
    simp
  · unfold notBoolV notBool PyVal.eqInt
    rcases h with rfl | rfl <;> decide

theorem asSeq_bit {v : PyVal} {n : Int} (h : AsSeq v n) : AsBit v n := by
  rcases h with h | ⟨h1, h2⟩
  · exact Or.inl h
  · subst h1; exact Or.inr ⟨Or.inl rfl, h2⟩

theorem checkLimitV_int (n limit : Int) :
    checkLimitV (.int n) limit = if n < 0 ∨ n > limit then .error .valueError else .ok () := by
  unfold checkLimitV
  simp only [lt_int, py_bind_ok, decide_eq_true_eq]
  by_cases h1 : n < 0
  · simp [h1]
  · by_cases h2 : limit < n
    · simp [h1, h2]
    · simp [h1, h2]

theorem rel_isSome {α β : Type} {R : α → β → Prop} {x : Option α} {y : Option β}
    (h : Option.Rel R x y) : x.isSome = y.isSome := by cases h <;> rfl

theorem checkBitV_of {x : Option PyVal} {y : Option Int} (h : Option.Rel AsBit x y) :
    checkBitV x = checkBit y := by
  cases h with
  | none => rfl
  | some h => simp [checkBitV, checkBit, notBoolV_bit h]

theorem checkV_of (o : Opcode) {x : ArgsV} {y : Args} (h : Meant x y) :
    checkV o x = check o y.sequence y.mask y.a y.b y.c y.paddr := by
  obtain ⟨xs, xm, xa, xb, xc, xp⟩ := x
  obtain ⟨ys, ym, ya, yb, yc, yp⟩ := y
  obtain ⟨hs, hm, ha, hb, hc, hp⟩ := h
  dsimp only at *
  have e1 : checkSequenceV xs xp = checkSequence ys yp := by
    unfold checkSequenceV checkSequence
    rw [truthyV_of hp]
    cases hs with
    | none => rfl
    | some h => simp [notBoolV_bit (asSeq_bit h)]
  have e2 : checkMaskV o.type xm xa xb xc xp =
      checkMask o.type ym ya yb yc yp := by
    unfold checkMaskV checkMask
    rw [rel_isSome ha, rel_isSome hb, rel_isSome hc, rel_isSome hp]
    cases hm with
    | none => rfl
    | some h => cases h; simp only [checkLimitV_int]
  have e3 : checkPaddrV xs xm xa xb xc xp =
      checkPaddr ys ym ya yb yc yp := by
    unfold checkPaddrV checkPaddr
    rw [rel_isSome ha, rel_isSome hb, rel_isSome hc, rel_isSome hs, rel_isSome hm]
    cases hp with
    | none => rfl
    | some h => cases h; simp only [checkLimitV_int]
  unfold checkV check
  rw [e1, e2, e3, checkBitV_of ha, checkBitV_of hb, checkBitV_of hc]

theorem oneIfV_of {x : Option PyVal} {y : Option Int} (h : Option.Rel AsBit x y) :
    x.map oneIfV = y.map oneIf := by
  cases h with
  | none => rfl
  | some h =>
    rcases h with rfl | ⟨h, rfl⟩
    · simp [oneIfV, oneIf, PyVal.truth]
    · rcases h with rfl | rfl <;> decide

theorem assignV_key (F : FloatOps) (d : BitField) (k : Key) (n : Int) :
    d.assignV F (keyOf k) (.int n) = d.assign k n := by
  unfold BitField.assignV BitField.assign
  rw [BitField.setitemV_int]
  rcases d.setitem k n with ⟨b, _ | _⟩ <;> rfl

theorem writeBit7V_of (d : BitField) (o : Opcode) {x : Option PyVal} {y : Option Int}
    (h : x.isSome = y.isSome) : writeBit7V d o x = writeBit7 d o y := by
  unfold writeBit7V writeBit7 usesBit7
  rw [h]
  simp only [decide_eq_true_eq]

theorem writeMaskV_of (F : FloatOps) (d : BitField) (o : Opcode) {x : Option PyVal} {y : Option Int}
    (h : Option.Rel AsInt x y) : writeMaskV F d o x = writeMask d o y := by
  cases h with
  | none => rfl
  | some h => cases h; exact assignV_key F d (.slice (some 2) (some 6)) _

theorem assignOptV_paddr (F : FloatOps) (d : BitField) {x : Option PyVal} {y : Option Int}
    (h : Option.Rel AsInt x y) :
    assignOptV F d (.slice (.int 1) (.int 6)) x = assignOpt d (.slice (some 1) (some 6)) y := by
  cases h with
  | none => rfl
  | some h => cases h; exact assignV_key F d (.slice (some 1) (some 6)) _

theorem index1 : (mkI 0 0 0).checkIndex (some 1) = .ok () := by decide

theorem assignOptV_seq (F : FloatOps) {x : Option PyVal} {y : Option Int}
    (h : Option.Rel AsSeq x y) :
    assignOptV F (mkI 0 0 0) (.idx (.int 1)) x = assignOpt (mkI 0 0 0) (.idx 1) y := by
  cases h with
  | none => rfl
  | some h =>
    rcases h with rfl | ⟨rfl, rfl⟩
    · exact assignV_key F _ (.idx 1) _
    · unfold assignOptV assignOpt BitField.assignV BitField.assign
      simp only
      rw [BitField.newIndexV_clears F (mkI 0 0 0) 1 index1 (.float (.fin 0)) (by decide +kernel) (by decide +kernel)]
      rcases (mkI 0 0 0).setitem (.idx 1) 0 with ⟨b, _ | _⟩ <;> rfl

/-- Operands that are taken for ints make the instruction with these ints. -/
theorem initV_of (F : FloatOps) (o : Opcode) {x : ArgsV} {y : Args} (h : Meant x y) :
    initV F o x = init o y.sequence y.mask y.a y.b y.c y.paddr := by
  unfold initV init
  rw [init12]
  simp only [py_bind_ok]
  rw [checkV_of o h, assignOptV_seq F h.sequence, oneIfV_of h.a, oneIfV_of h.b, oneIfV_of h.c]
  simp only [writeBit7V_of _ o (rel_isSome h.mask), writeMaskV_of F _ o h.mask,
    assignOptV_paddr F _ h.paddr]

theorem notBoolV_inv {v : PyVal} (h : notBoolV v = false) : ∃ n, AsBit v n ∧ (n = 0 ∨ n = 1) := by
  unfold notBoolV at h
  simp only [Bool.not_eq_false', Bool.or_eq_true] at h
  cases v with
  | int n =>
    refine ⟨n, Or.inl rfl, ?_⟩
    simpa [PyVal.eqInt] using h
  | float x =>
    cases x with
    | fin q =>
      rcases h with h | h
      · have : q = 0 := by simpa [PyVal.eqInt] using h
        subst this; exact ⟨0, Or.inr ⟨Or.inl rfl, rfl⟩, Or.inl rfl⟩
      · have : q = 1 := by simpa [PyVal.eqInt] using h
        subst this; exact ⟨1, Or.inr ⟨Or.inr rfl, rfl⟩, Or.inr rfl⟩
    | inf => simp [PyVal.eqInt] at h
    | ninf => simp [PyVal.eqInt] at h
    | nan => simp [PyVal.eqInt] at h
  | other t => simp [PyVal.eqInt] at h

theorem checkBitV_inv {x : Option PyVal} (h : checkBitV x = .ok ()) : ∃ y, Option.Rel AsBit x y := by
  cases x with
  | none => exact ⟨none, .none⟩
  | some v =>
    unfold checkBitV at h
    cases hb : notBoolV v with
    | true => simp [hb] at h
    | false =>
      obtain ⟨n, hn, -⟩ := notBoolV_inv hb
      exact ⟨some n, .some hn⟩

theorem checkSequenceV_inv (F : FloatOps) {x p : Option PyVal} {d : BitField}
    (h : checkSequenceV x p = .ok ()) (ha : assignOptV F (mkI 0 0 0) (.idx (.int 1)) x = .ok d) :
    ∃ y, Option.Rel AsSeq x y := by
  cases x with
  | none => exact ⟨none, .none⟩
  | some v =>
    unfold checkSequenceV at h
    cases hb : notBoolV v with
    | true =>
      simp only [hb] at h
      split at h <;> cases h
    | false =>
      obtain ⟨n, hn, h01⟩ := notBoolV_inv hb
      rcases hn with rfl | ⟨-, rfl⟩
      · exact ⟨some n, .some (Or.inl rfl)⟩
      · rcases h01 with rfl | rfl
        · exact ⟨some 0, .some (Or.inr ⟨rfl, rfl⟩)⟩
        · exfalso
          have : BitField.newIndexV F (mkI 0 0 0) (.int 1) (.float (.fin 1)) = .error .typeError := by
            rw [BitField.newIndexV_bit F (mkI 0 0 0) 1 index1]
            rfl
          simp only [assignOptV, BitField.assignV, BitField.setitemV] at ha
          erw [this] at ha
          cases ha

theorem int_of_assign (F : FloatOps) {d d' : BitField} {s t v : PyVal}
    (h : d.assignV F (.slice s t) v = .ok d') : ∃ n, v = .int n := by
  by_contra hv
  obtain ⟨e, he, -⟩ := d.assignV_value F s t v hv
  rw [he] at h
  cases h

/-- An instruction is made only of operands that are taken for ints. -/
theorem initV_inv (F : FloatOps) (o : Opcode) {x : ArgsV} {i : Instruction}
    (h : initV F o x = .ok i) : ∃ y, Meant x y := by
  unfold initV at h
  rw [init12, py_bind_ok] at h
  obtain ⟨_, hc, h⟩ := py_bind_inv h
  unfold checkV at hc
  obtain ⟨_, c1, hc⟩ := py_bind_inv hc
  obtain ⟨_, -, hc⟩ := py_bind_inv hc
  obtain ⟨_, c3, hc⟩ := py_bind_inv hc
  obtain ⟨_, c4, hc⟩ := py_bind_inv hc
  obtain ⟨_, c5, -⟩ := py_bind_inv hc
  obtain ⟨d1, g1, h⟩ := py_bind_inv h
  obtain ⟨d2, -, h⟩ := py_bind_inv h
  obtain ⟨d3, g3, h⟩ := py_bind_inv h
  obtain ⟨d4, -, h⟩ := py_bind_inv h
  obtain ⟨d5, -, h⟩ := py_bind_inv h
  obtain ⟨d6, -, h⟩ := py_bind_inv h
  obtain ⟨d7, g7, -⟩ := py_bind_inv h
  obtain ⟨ys, ks⟩ := checkSequenceV_inv F c1 g1
  obtain ⟨ya, ka⟩ := checkBitV_inv c3
  obtain ⟨yb, kb⟩ := checkBitV_inv c4
  obtain ⟨yc, kc⟩ := checkBitV_inv c5
  have hm : ∃ ym, Option.Rel AsInt x.mask ym := by
    cases hx : x.mask with
    | none => exact ⟨none, .none⟩
    | some v =>
      rw [hx] at g3
      obtain ⟨n, rfl⟩ := int_of_assign F g3
      exact ⟨some n, .some rfl⟩
  have hp : ∃ yp, Option.Rel AsInt x.paddr yp := by
    cases hx : x.paddr with
    | none => exact ⟨none, .none⟩
    | some v =>
      rw [hx] at g7
      obtain ⟨n, rfl⟩ := int_of_assign F g7
      exact ⟨some n, .some rfl⟩
  obtain ⟨ym, km⟩ := hm
  obtain ⟨yp, kp⟩ := hp
  exact ⟨⟨ys, ym, ya, yb, yc, yp⟩, ks, km, ka, kb, kc, kp⟩

theorem mild_limit (v : PyVal) (n : Int) : Mild (checkLimitV v n) := by
  unfold checkLimitV
  refine (mild_lt _ _).bind fun a => ?_
  cases a with
  | true => exact mild_value
  | false =>
    refine (mild_lt _ _).bind fun a => ?_
    cases a with
    | true => exact mild_value
    | false => exact mild_ok ()

theorem mild_if {α : Type} {p : Prop} [Decidable p] {x y : Py α} (hx : Mild x) (hy : Mild y) :
    Mild (if p then x else y) := by split <;> assumption

theorem mild_bit (x : Option PyVal) : Mild (checkBitV x) := by
  unfold checkBitV
  split
  · exact mild_ok ()
  · exact mild_if mild_value (mild_ok ())

theorem mild_opt (x : Option Int) (n : Int) : Mild (checkOpt x n) := by
  unfold checkOpt
  split
  · exact mild_ok ()
  · exact mild_if mild_value (mild_ok ())

theorem mild_check (o : Opcode) (x : ArgsV) : Mild (checkV o x) := by
  unfold checkV
  refine Mild.bind ?_ fun _ => Mild.bind ?_ fun _ => (mild_bit _).bind fun _ => (mild_bit _).bind fun _ =>
    (mild_bit _).bind fun _ => Mild.bind ?_ fun _ => (mild_opt _ _).bind fun _ => (mild_opt _ _).bind fun _ => ?_
  · unfold checkSequenceV
    split
    · exact mild_ok ()
    · exact mild_if mild_value (mild_if mild_value (mild_ok ()))
  · unfold checkMaskV
    split
    · exact mild_ok ()
    · exact mild_if mild_value (mild_if mild_value (mild_limit _ _))
  · unfold checkPaddrV
    split
    · exact mild_ok ()
    · exact mild_if mild_value (mild_limit _ _)
  · unfold checkOp
    exact mild_if mild_value (mild_ok ())

theorem mild_newIndex (F : FloatOps) (d : BitField) (i : Int) (v : PyVal) :
    Mild (d.newIndexV F (.int i) v) := by
  unfold BitField.newIndexV
  refine Mild.bind (fun e h => d.checkIndexV_refused F _ e h) fun _ =>
    Mild.bind (fun e h => d.checkValueV_refused F v (.int 1) (fun x hx => by cases hx) e h) fun _ => ?_
  rw [BitField.rindexV_int, py_bind_ok, BitField.shiftV_int, py_bind_ok]
  refine Mild.bind (fun e h => BitField.shl_refused h) fun m => ?_
  split
  · refine Mild.bind (fun e h => ?_) fun m => mild_ok _
    cases v with
    | int n => exact BitField.shl_refused h
    | float x => cases h; exact Or.inr rfl
    | other t => cases h; exact Or.inr rfl
  · exact mild_ok _

theorem mild_assignV (F : FloatOps) (d : BitField) (i : Int) (v : PyVal) :
    Mild (d.assignV F (.idx (.int i)) v) := by
  intro e h
  have := mild_newIndex F d i v
  simp only [BitField.assignV, BitField.setitemV] at h
  revert this h
  generalize d.newIndexV F (.int i) v = r
  intro h hm
  cases r with
  | ok v => cases h
  | error e' => cases h; exact hm _ rfl

theorem mild_assign (d : BitField) (i v : Int) : Mild (d.assign (.idx i) v) := by
  rw [← assignV_key exactOps]
  exact mild_assignV exactOps d i (.int v)

theorem mild_assignSlice (d : BitField) (s t v : Int) : Mild (d.assign (.slice (some s) (some t)) v) := by
  rw [← assignV_key exactOps]
  exact fun e h => d.assignV_errors exactOps _ _ _ e h

theorem mild_assignOpt (d : BitField) (i : Int) (v : Option Int) : Mild (assignOpt d (.idx i) v) := by
  cases v with
  | none => exact mild_ok _
  | some v => exact mild_assign d i v

/-- The constructor raises nothing but ValueError and TypeError. -/
theorem mild_init (F : FloatOps) (o : Opcode) (x : ArgsV) : Mild (initV F o x) := by
  unfold initV
  rw [init12, py_bind_ok]
  refine (mild_check o x).bind fun _ => Mild.bind ?_ fun d => Mild.bind ?_ fun d => Mild.bind ?_ fun d =>
    (mild_assignOpt d _ _).bind fun d => (mild_assignOpt d _ _).bind fun d =>
    (mild_assignOpt d _ _).bind fun d => Mild.bind ?_ fun d => (mild_assignSlice d _ _ _).bind fun d =>
    mild_ok _
  · cases x.sequence with
    | none => exact mild_ok _
    | some v => exact mild_assignV F _ 1 v
  · unfold writeBit7V
    exact mild_if (mild_assignOpt d _ _) (mild_ok _)
  · cases x.mask with
    | some v => exact fun e h => d.assignV_errors F _ _ _ e h
    | none =>
      unfold writeMaskV
      cases o.b23 with
      | none => exact mild_ok _
      | some v => exact mild_assignSlice d _ _ v
  · cases x.paddr with
    | some v => exact fun e h => d.assignV_errors F _ _ _ e h
    | none => exact mild_ok _

end Instruction

end H800
