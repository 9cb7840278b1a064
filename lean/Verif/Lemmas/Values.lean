import Mathlib.Tactic.Linarith
import Verif.Spec.Values

namespace H800

theorem flt_lt_int (m n : Int) : Flt.lt (.fin m) (.fin n) = decide (m < n) := by
  simp [Flt.lt]

theorem lt_int (m n : Int) : (PyVal.int m).lt (.int n) = .ok (decide (m < n)) := by
  simp [PyVal.lt, PyVal.number, flt_lt_int, bind, Except.bind, pure, Except.pure]

theorem ge_int (m n : Int) : (PyVal.int m).ge (.int n) = .ok (decide (m ≥ n)) := by
  simp only [PyVal.ge, PyVal.number, Flt.le, flt_lt_int, bind, Except.bind, pure, Except.pure]
  congr 1
  by_cases h : m < n
  · simp [h]
  · simp [h]; omega

namespace BitField

variable (F : FloatOps) (b : BitField)

theorem rindexV_int (i : Int) : b.rindexV F (.int i) = .ok (.int (b.rindex i)) := by
  obtain ⟨w, v, n, o⟩ := b
  cases o <;> cases n <;>
    simp [rindexV, rindex, PyVal.add, PyVal.rsub, bind, Except.bind, Int.sub_eq_add_neg]

theorem rindexV_float (x : Flt) : ∃ y, b.rindexV F (.float x) = .ok (.float y) := by
  obtain ⟨w, v, n, o⟩ := b
  cases o <;> cases n <;>
    simp [rindexV, PyVal.add, PyVal.rsub, bind, Except.bind]

theorem shiftV_int (i : Int) : b.shiftV F (.int i) = .ok (.int (b.shift i)) := by
  obtain ⟨w, v, n, o⟩ := b
  cases o <;>
    simp [shiftV, shift, PyVal.add, PyVal.rsub, bind, Except.bind, Int.sub_eq_add_neg]

theorem shiftV_float (x : Flt) : ∃ y, b.shiftV F (.float x) = .ok (.float y) := by
  obtain ⟨w, v, n, o⟩ := b
  cases o <;> simp [shiftV, PyVal.add, PyVal.rsub, bind, Except.bind]

theorem checkIndexV_int (i : Int) : b.checkIndexV F (.int i) = b.checkIndex (some i) := by
  simp only [checkIndexV, checkIndex, rindexV_int, needInt, bind, Except.bind, lt_int, ge_int]
  by_cases h1 : b.rindex i < 0
  · simp [h1, throw, throwThe, MonadExceptOf.throw]
  · by_cases h2 : b.rindex i ≥ b.width
    · simp [h1, h2, throw, throwThe, MonadExceptOf.throw]
    · simp [h1, h2, pure, Except.pure]

theorem checkIndexV_other (t : Bool) : b.checkIndexV F (.other t) = .error .typeError := by
  obtain ⟨w, v, n, o⟩ := b
  cases o <;> cases n <;>
    simp [checkIndexV, rindexV, PyVal.add, PyVal.rsub, PyVal.lt, PyVal.number, bind, Except.bind]

theorem checkIndexV_float (x : Flt) :
    b.checkIndexV F (.float x) = .ok () ∨ b.checkIndexV F (.float x) = .error .valueError := by
  obtain ⟨y, hy⟩ := b.rindexV_float F x
  simp only [checkIndexV, hy, bind, Except.bind, PyVal.lt, PyVal.ge, PyVal.number, pure, Except.pure]
  cases y.lt (.fin (0 : Int)) <;> cases Flt.le (.fin (b.width : Int)) y <;>
    simp [throw, throwThe, MonadExceptOf.throw]

theorem checkRangeV_int (s e : Int) :
    b.checkRangeV F (.int s) (.int e) = b.checkRange (some s) (some e) := by
  simp only [checkRangeV, checkRange, checkIndexV_int]
  cases b.checkIndex (some s) with
  | error x => rfl
  | ok _ =>
    cases b.checkIndex (some e) with
    | error x => rfl
    | ok _ =>
      obtain ⟨w, v, n, o⟩ := b
      cases o <;> cases n <;>
        simp [bind, Except.bind, lt_int, needInt]

/-- The errors that a wrong value or index gives. -/
def Refused (e : PyErr) : Prop := e = .valueError ∨ e = .typeError

theorem checkIndexV_refused (v : PyVal) (e : PyErr) (h : b.checkIndexV F v = .error e) :
    Refused e := by
  cases v with
  | int i =>
    rw [checkIndexV_int] at h
    simp only [checkIndex, needInt, bind, Except.bind] at h
    split at h
    · cases h; exact Or.inl rfl
    · cases h
  | float x =>
    rcases b.checkIndexV_float F x with h' | h' <;> rw [h'] at h <;> cases h
    exact Or.inl rfl
  | other t => rw [checkIndexV_other] at h; cases h; exact Or.inr rfl

theorem lt_refused (v w : PyVal) (e : PyErr) (h : v.lt w = .error e) : e = .typeError := by
  cases v <;> cases w <;>
    simp [PyVal.lt, PyVal.number, bind, Except.bind, pure, Except.pure] at h <;> exact h.symm

theorem checkRangeV_refused (s t : PyVal) (e : PyErr) (h : b.checkRangeV F s t = .error e) :
    Refused e := by
  simp only [checkRangeV, bind, Except.bind] at h
  cases h1 : b.checkIndexV F s with
  | error x => rw [h1] at h; cases h; exact b.checkIndexV_refused F s _ h1
  | ok _ =>
    rw [h1] at h
    cases h2 : b.checkIndexV F t with
    | error x => rw [h2] at h; cases h; exact b.checkIndexV_refused F t _ h2
    | ok _ =>
      rw [h2] at h
      simp only at h
      revert h
      cases b.order <;> cases b.numbering <;> intro h <;> simp only at h <;> split at h
      all_goals first
        | (rename_i heq; cases h; exact Or.inr (lt_refused _ _ _ heq))
        | (split at h
           · cases h; exact Or.inl rfl
           · cases h)

theorem checkRangeV_numbers (s t : PyVal) (h : b.checkRangeV F s t = .ok ()) :
    (∀ x, s ≠ .other x) ∧ ∀ x, t ≠ .other x := by
  simp only [checkRangeV, bind, Except.bind] at h
  constructor
  · rintro x rfl
    rw [checkIndexV_other] at h; cases h
  · rintro x rfl
    cases h1 : b.checkIndexV F s with
    | error x => rw [h1] at h; cases h
    | ok _ => rw [h1, checkIndexV_other] at h; cases h

theorem rindexV_number (v : PyVal) (h : ∀ x, v ≠ .other x) :
    (∃ i, v = .int i ∧ b.rindexV F v = .ok (.int (b.rindex i))) ∨
      ∃ x y, v = .float x ∧ b.rindexV F v = .ok (.float y) := by
  cases v with
  | int i => exact Or.inl ⟨i, rfl, b.rindexV_int F i⟩
  | float x => obtain ⟨y, hy⟩ := b.rindexV_float F x; exact Or.inr ⟨x, y, rfl, hy⟩
  | other t => exact absurd rfl (h t)

/-- A range that passes the checks and has a float for an end: its width is a float. -/
theorem range_float (s t : PyVal) (h : b.checkRangeV F s t = .ok ())
    (hf : ¬ ((∃ i, s = .int i) ∧ ∃ i, t = .int i)) :
    ∃ rs rt w, b.getRangeV F s t = .ok (rs, rt) ∧ rt.sub F rs = .ok (.float w) ∧
      (∀ x, rs ≠ .other x) ∧ ∀ x, rt ≠ .other x := by
  obtain ⟨h1, h2⟩ := b.checkRangeV_numbers F s t h
  simp only [getRangeV, h, bind, Except.bind, pure, Except.pure]
  rcases b.rindexV_number F s h1 with ⟨i, rfl, e1⟩ | ⟨x, y, rfl, e1⟩ <;>
    rcases b.rindexV_number F t h2 with ⟨j, rfl, e2⟩ | ⟨x', y', rfl, e2⟩ <;>
    rw [e1, e2]
  · exact absurd ⟨⟨i, rfl⟩, j, rfl⟩ hf
  all_goals exact ⟨_, _, _, rfl, rfl, by simp, by simp⟩

theorem bitmaskV_float (s t : PyVal) (h : b.checkRangeV F s t = .ok ())
    (hf : ¬ ((∃ i, s = .int i) ∧ ∃ i, t = .int i)) : b.bitmaskV F s t = .error .typeError := by
  obtain ⟨rs, rt, w, h1, h2, h3, h4⟩ := b.range_float F s t h hf
  simp only [bitmaskV, h, h1, h2, bind, Except.bind, PyVal.add]
  split
  · rfl
  · obtain ⟨sh, hsh⟩ : ∃ sh, b.shiftV F rt = .ok sh := by
      cases rt with
      | int i => exact ⟨_, b.shiftV_int F i⟩
      | float x => obtain ⟨y, hy⟩ := b.shiftV_float F x; exact ⟨_, hy⟩
      | other x => exact absurd rfl (h4 x)
    rw [hsh]
    rfl

theorem getSliceV_refused (s t : PyVal) (hf : ¬ ((∃ i, s = .int i) ∧ ∃ i, t = .int i)) :
    ∃ e, b.getSliceV F s t = .error e ∧ Refused e := by
  simp only [getSliceV, bind, Except.bind]
  cases h : b.checkRangeV F s t with
  | error e => exact ⟨e, rfl, b.checkRangeV_refused F s t e h⟩
  | ok _ =>
    obtain ⟨rs, rt, w, h1, -⟩ := b.range_float F s t h hf
    simp only [h1, b.bitmaskV_float F s t h hf]
    exact ⟨_, rfl, Or.inr rfl⟩

theorem checkValueV_refused (v : PyVal) (w : PyVal) (hw : ∀ x, w ≠ .other x) (e : PyErr)
    (h : b.checkValueV F v w = .error e) : Refused e := by
  simp only [checkValueV, bind, Except.bind] at h
  cases h1 : w.lt (.int 0) with
  | error x => rw [h1] at h; cases h; exact Or.inr (lt_refused _ _ _ h1)
  | ok c =>
    rw [h1] at h
    cases c with
    | true => cases h; exact Or.inl rfl
    | false =>
      simp only [Bool.false_eq_true, if_false, pure, Except.pure] at h
      cases h2 : (PyVal.int b.maxval).lt w with
      | error x => rw [h2] at h; cases h; exact Or.inr (lt_refused _ _ _ h2)
      | ok c =>
        rw [h2] at h
        cases c with
        | true => cases h; exact Or.inl rfl
        | false =>
          simp only [Bool.false_eq_true, if_false] at h
          obtain ⟨p, hp⟩ : ∃ p, w.pow2 F = .ok p := by
            cases w with
            | int i => exact ⟨_, rfl⟩
            | float x => exact ⟨_, rfl⟩
            | other x => exact absurd rfl (hw x)
          rw [hp] at h
          simp only at h
          cases h3 : p.lt v with
          | error x => rw [h3] at h; cases h; exact Or.inr (lt_refused _ _ _ h3)
          | ok c =>
            rw [h3] at h
            cases c with
            | true => cases h; exact Or.inl rfl
            | false => cases h

theorem newSliceV_bounds (s t v : PyVal) (hf : ¬ ((∃ i, s = .int i) ∧ ∃ i, t = .int i)) :
    ∃ e, b.newSliceV F s t v = .error e ∧ Refused e := by
  simp only [newSliceV, bind, Except.bind]
  cases h : b.checkRangeV F s t with
  | error e => exact ⟨e, rfl, b.checkRangeV_refused F s t e h⟩
  | ok _ =>
    obtain ⟨rs, rt, w, h1, h2, -⟩ := b.range_float F s t h hf
    simp only [h1, h2, PyVal.add]
    cases h3 : b.checkValueV F v (.float (w.add F 1)) with
    | error e => exact ⟨e, rfl, b.checkValueV_refused F v _ (by simp) e h3⟩
    | ok _ =>
      simp only [b.bitmaskV_float F s t h hf]
      exact ⟨_, rfl, Or.inr rfl⟩

theorem getIndexV_refused (i : PyVal) (hf : ¬ ∃ n, i = .int n) :
    ∃ e, b.getIndexV F i = .error e ∧ Refused e := by
  simp only [getIndexV, bind, Except.bind]
  cases h : b.checkIndexV F i with
  | error e => exact ⟨e, rfl, b.checkIndexV_refused F i e h⟩
  | ok _ =>
    cases i with
    | int n => exact absurd ⟨n, rfl⟩ hf
    | other t => rw [checkIndexV_other] at h; cases h
    | float x =>
      obtain ⟨y, hy⟩ := b.rindexV_float F x
      obtain ⟨z, hz⟩ := b.shiftV_float F y
      simp only [hy, hz]
      exact ⟨_, rfl, Or.inr rfl⟩

theorem newIndexV_index (i v : PyVal) (hf : ¬ ∃ n, i = .int n) :
    ∃ e, b.newIndexV F i v = .error e ∧ Refused e := by
  simp only [newIndexV, bind, Except.bind]
  cases h : b.checkIndexV F i with
  | error e => exact ⟨e, rfl, b.checkIndexV_refused F i e h⟩
  | ok _ =>
    simp only
    cases h3 : b.checkValueV F v (.int 1) with
    | error e => exact ⟨e, rfl, b.checkValueV_refused F v _ (by simp) e h3⟩
    | ok _ =>
      cases i with
      | int n => exact absurd ⟨n, rfl⟩ hf
      | other t => rw [checkIndexV_other] at h; cases h
      | float x =>
        obtain ⟨y, hy⟩ := b.rindexV_float F x
        obtain ⟨z, hz⟩ := b.shiftV_float F y
        simp only [hy, hz]
        exact ⟨_, rfl, Or.inr rfl⟩

/-! ### Ints -/

theorem lsbIndexV_int (s e : Int) : b.lsbIndexV (.int s) (.int e) = .ok (.int (b.lsbIndex s e)) := by
  obtain ⟨w, v, n, o⟩ := b
  cases o <;>
    simp only [lsbIndexV, lsbIndex, PyVal.max, PyVal.min, lt_int, bind, Except.bind]
  · by_cases h : s < e
    · simp [h, pure, Except.pure]; omega
    · simp [h, pure, Except.pure]; omega
  · by_cases h : e < s
    · simp [h, pure, Except.pure]; omega
    · simp [h, pure, Except.pure]; omega

theorem getRangeV_int (s e : Int) : b.getRangeV F (.int s) (.int e) =
    (b.getRange (some s) (some e)).map fun p => (.int p.1, .int p.2) := by
  simp only [getRangeV, getRange, checkRangeV_int, rindexV_int, needInt, bind, Except.bind]
  cases b.checkRange (some s) (some e) <;> rfl

theorem checkValueV_int (v w : Int) : b.checkValueV F (.int v) (.int w) = b.checkValue v (some w) := by
  simp only [checkValueV, checkValue, PyVal.pow2, lt_int, bind, Except.bind, Option.getD_some]
  by_cases h1 : w < 0
  · simp [h1, throw, throwThe, MonadExceptOf.throw]
  · by_cases h2 : b.maxval < w
    · simp [h1, h2, throw, throwThe, MonadExceptOf.throw]
    · by_cases h3 : H800.pow2 w < v
      · simp [h1, h2, h3, throw, throwThe, MonadExceptOf.throw]
      · simp [h1, h2, h3, pure, Except.pure]

theorem sub_one_int (s e : Int) : (do (← (PyVal.int e).sub F (.int s)).add F 1 : Py PyVal) =
    .ok (.int (e - s + 1)) := rfl

theorem bitmaskV_int (s e : Int) : b.bitmaskV F (.int s) (.int e) = b.bitmask (some s) (some e) := by
  simp only [bitmaskV, bitmask, checkRangeV_int, getRangeV_int, bind, Except.bind]
  cases b.checkRange (some s) (some e) with
  | error _ => rfl
  | ok _ =>
    cases b.getRange (some s) (some e) with
    | error _ => rfl
    | ok p =>
      obtain ⟨rs, re⟩ := p
      simp only [Except.map, PyVal.sub, PyVal.add, PyVal.eqInt, shiftV_int, PyVal.pow2,
        decide_eq_true_eq]
      by_cases h : re - rs + 1 = (b.width : Int)
      · rw [if_pos h, if_pos h]; rfl
      · rw [if_neg h, if_neg h]; rfl

theorem getSliceV_int (s e : Int) : b.getSliceV F (.int s) (.int e) = b.getSlice (some s) (some e) := by
  simp only [getSliceV, getSlice, checkRangeV_int, getRangeV_int, bitmaskV_int, bind, Except.bind]
  cases b.checkRange (some s) (some e) with
  | error _ => rfl
  | ok _ =>
    cases b.getRange (some s) (some e) with
    | error _ => rfl
    | ok p =>
      obtain ⟨rs, re⟩ := p
      simp only [Except.map]
      cases b.bitmask (some s) (some e) with
      | error _ => rfl
      | ok m =>
        simp only [lsbIndexV_int, shiftV_int, PyVal.shr]

theorem getIndexV_int (i : Int) : b.getIndexV F (.int i) = b.getIndex i := by
  simp only [getIndexV, getIndex, checkIndexV_int, rindexV_int, shiftV_int, PyVal.shr, bind,
    Except.bind]

theorem newSliceV_int (s e v : Int) : b.newSliceV F (.int s) (.int e) (.int v) =
    b.newSlice (some s) (some e) v := by
  simp only [newSliceV, newSlice, checkRangeV_int, getRangeV_int, bitmaskV_int, bind, Except.bind]
  cases b.checkRange (some s) (some e) with
  | error _ => rfl
  | ok _ =>
    cases b.getRange (some s) (some e) with
    | error _ => rfl
    | ok p =>
      obtain ⟨rs, re⟩ := p
      simp only [Except.map, PyVal.sub, PyVal.add, checkValueV_int, lsbIndexV_int, shiftV_int,
        PyVal.shl]

theorem newIndexV_int (i v : Int) : b.newIndexV F (.int i) (.int v) = b.newIndex i v := by
  simp only [newIndexV, newIndex, checkIndexV_int, checkValueV_int, rindexV_int, shiftV_int, PyVal.shl,
    PyVal.eqInt, decide_eq_true_eq, bind, Except.bind]
  cases b.checkIndex (some i) with
  | error _ => rfl
  | ok _ =>
    cases b.checkValue v (some 1) with
    | error _ => rfl
    | ok _ =>
      cases H800.shl 1 (b.shift (b.rindex i)) with
      | error _ => rfl
      | ok m => split <;> rfl

theorem checkRangeV_none (s e : Option Int) (h : s = none ∨ e = none) :
    b.checkRangeV F (.ofOpt s) (.ofOpt e) = b.checkRange s e ∧
      ∃ x, b.checkRange s e = .error x := by
  cases s with
  | none =>
    refine ⟨?_, .typeError, rfl⟩
    simp only [checkRangeV, PyVal.ofOpt, PyVal.none, checkIndexV_other]
    rfl
  | some i =>
    cases e with
    | some j => rcases h with h | h <;> cases h
    | none =>
      simp only [checkRangeV, checkRange, PyVal.ofOpt, PyVal.none, checkIndexV_other, checkIndexV_int]
      cases b.checkIndex (some i) with
      | error x => exact ⟨rfl, x, rfl⟩
      | ok _ => exact ⟨rfl, .typeError, rfl⟩

theorem getSliceV_opt (s e : Option Int) : b.getSliceV F (.ofOpt s) (.ofOpt e) = b.getSlice s e := by
  by_cases h : s = none ∨ e = none
  · obtain ⟨h1, x, h2⟩ := b.checkRangeV_none F s e h
    simp only [getSliceV, getSlice, h1, h2, bind, Except.bind]
  · cases s <;> cases e <;> first | exact b.getSliceV_int F _ _ | exact absurd (by simp) h

theorem newSliceV_opt (s e : Option Int) (v : Int) :
    b.newSliceV F (.ofOpt s) (.ofOpt e) (.int v) = b.newSlice s e v := by
  by_cases h : s = none ∨ e = none
  · obtain ⟨h1, x, h2⟩ := b.checkRangeV_none F s e h
    simp only [newSliceV, newSlice, h1, h2, bind, Except.bind]
  · cases s <;> cases e <;> first | exact b.newSliceV_int F _ _ _ | exact absurd (by simp) h

theorem isRangeV_opt (s e : Option Int) (v : Int) :
    b.isRangeV F (.ofOpt s) (.ofOpt e) (.int v) = b.isRange s e v := by
  by_cases h : s = none ∨ e = none
  · obtain ⟨h1, x, h2⟩ := b.checkRangeV_none F s e h
    simp only [isRangeV, isRange, h1, h2, bind, Except.bind]
  · cases s with
    | none => exact absurd (Or.inl rfl) h
    | some i =>
      cases e with
      | none => exact absurd (Or.inr rfl) h
      | some j =>
        simp only [isRangeV, isRange, PyVal.ofOpt, checkRangeV_int, getSliceV_int, bitmaskV_int,
          PyVal.eqInt, bind, Except.bind]
        cases b.checkRange (some i) (some j) with
        | error _ => rfl
        | ok _ =>
          by_cases h0 : v = 0
          · subst h0; simp
          · by_cases h1 : v = 1
            · subst h1; simp
            · simp [h0, h1]

theorem setitemV_int (k : Key) (x : Int) : b.setitemV F (Spec.keyOf k) (.int x) = b.setitem k x := by
  cases k with
  | idx i => simp only [setitemV, setitem, Spec.keyOf, newIndexV_int]; cases b.newIndex i x <;> rfl
  | slice s e => simp only [setitemV, setitem, Spec.keyOf, newSliceV_opt]; cases b.newSlice s e x <;> rfl

/-- The value setter compares with `2 ** width` only. -/
theorem checkValueV_whole (v : PyVal) : b.checkValueV F v (.int b.width) =
    (do if ← (PyVal.int (2 ^ b.width)).lt v then throw .valueError) := by
  have h : ¬ b.maxval < (b.width : Int) := by
    have := Nat.lt_two_pow_self (n := b.width)
    have h2 : ((2 ^ b.width : Nat) : Int) = 2 ^ b.width := by push_cast; rfl
    simp only [maxval]
    omega
  have h3 : ¬ (b.width : Int) < 0 := by omega
  have h4 : H800.pow2 (b.width : Int) = 2 ^ b.width := by simp [H800.pow2]
  simp only [checkValueV, lt_int, h, h3, PyVal.pow2, h4, bind, Except.bind, decide_false,
    Bool.false_eq_true, if_false, pure, Except.pure]
  cases (PyVal.int (2 ^ b.width)).lt v with
  | error _ => rfl
  | ok c => cases c <;> rfl

theorem setValueV_int (x : Int) : b.setValueV F (.int x) = b.setValue x := by
  have : b.checkValue x none = b.checkValue x (some b.width) := rfl
  simp only [setValueV, setValue, this, checkValueV_int, PyVal.toInt, bind, Except.bind]
  cases b.checkValue x (some b.width) <;> rfl

theorem setV_int (i : Option Int) : b.setV F (.ofOpt i) = b.set i := by
  cases i with
  | none => rfl
  | some n =>
    simp only [setV, set, PyVal.ofOpt, PyVal.truth, checkIndexV_int]
    by_cases h : n = 0
    · simp [h]
    · have := b.setitemV_int F (.idx n) 1
      simp only [Spec.keyOf] at this
      simp only [h, this, decide_true, not_false_eq_true, ne_eq, if_true, if_false]
      cases b.checkIndex (some n) <;> rfl

theorem clearV_int (i : Option Int) : b.clearV F (.ofOpt i) = b.clear i := by
  cases i with
  | none => rfl
  | some n =>
    simp only [clearV, clear, PyVal.ofOpt, PyVal.truth, checkIndexV_int]
    by_cases h : n = 0
    · simp [h]
    · have := b.setitemV_int F (.idx n) 0
      simp only [Spec.keyOf] at this
      simp only [h, this, decide_true, not_false_eq_true, ne_eq, if_true, if_false]
      cases b.checkIndex (some n) <;> rfl

theorem isBitV_int (i x : Int) : b.isBitV F (.int i) (.int x) = b.isBit i x := by
  simp only [isBitV, isBit, checkIndexV_int, getIndexV_int, PyVal.eqInt, eq_comm]

/-! ### Values that are not ints -/

theorem shl_refused {x n : Int} {e : PyErr} (h : H800.shl x n = .error e) : Refused e := by
  rw [H800.shl] at h
  split at h <;> cases h
  exact Or.inl rfl

theorem bitmaskV_refused (s t : PyVal) (e : PyErr) (h : b.bitmaskV F s t = .error e) : Refused e := by
  by_cases hf : (∃ i, s = .int i) ∧ ∃ i, t = .int i
  · obtain ⟨⟨i, rfl⟩, j, rfl⟩ := hf
    cases h1 : b.checkRangeV F (.int i) (.int j) with
    | error x =>
      simp only [bitmaskV, h1, bind, Except.bind] at h
      cases h
      exact b.checkRangeV_refused F _ _ _ h1
    | ok _ =>
      have h2 := h1
      rw [checkRangeV_int] at h2
      rw [bitmaskV_int] at h
      simp only [bitmask, getRange, h2, needInt, bind, Except.bind, pure, Except.pure] at h
      exact shl_refused h
  · cases h1 : b.checkRangeV F s t with
    | error x =>
      simp only [bitmaskV, h1, bind, Except.bind] at h
      cases h
      exact b.checkRangeV_refused F _ _ _ h1
    | ok _ =>
      rw [b.bitmaskV_float F s t h1 hf] at h
      cases h
      exact Or.inr rfl

theorem newSliceV_value (s t v : PyVal) (hv : ¬ ∃ n, v = .int n) :
    ∃ e, b.newSliceV F s t v = .error e ∧ Refused e := by
  by_cases hf : (∃ i, s = .int i) ∧ ∃ i, t = .int i
  · obtain ⟨⟨i, rfl⟩, j, rfl⟩ := hf
    simp only [newSliceV, getRangeV_int, bind, Except.bind]
    cases h1 : b.checkRangeV F (.int i) (.int j) with
    | error x => exact ⟨x, rfl, b.checkRangeV_refused F _ _ _ h1⟩
    | ok _ =>
      have h2 := h1
      rw [checkRangeV_int] at h2
      simp only [getRange, h2, needInt, bind, Except.bind, pure, Except.pure, Except.map, PyVal.sub,
        PyVal.add]
      cases h3 : b.checkValueV F v (.int (b.rindex j - b.rindex i + 1)) with
      | error x => exact ⟨x, rfl, b.checkValueV_refused F _ _ (by simp) _ h3⟩
      | ok _ =>
        simp only
        cases h4 : b.bitmaskV F (.int i) (.int j) with
        | error x => exact ⟨x, rfl, b.bitmaskV_refused F _ _ _ h4⟩
        | ok m =>
          simp only [lsbIndexV_int, shiftV_int]
          refine ⟨.typeError, ?_, Or.inr rfl⟩
          cases v with
          | int n => exact absurd ⟨n, rfl⟩ hv
          | float x => rfl
          | other x => rfl
  · exact b.newSliceV_bounds F s t v hf

theorem newSliceV_errors (s t v : PyVal) (e : PyErr) (h : b.newSliceV F s t v = .error e) :
    Refused e := by
  by_cases hv : ∃ n, v = .int n
  · by_cases hf : (∃ i, s = .int i) ∧ ∃ i, t = .int i
    · obtain ⟨⟨i, rfl⟩, j, rfl⟩ := hf
      obtain ⟨n, rfl⟩ := hv
      simp only [newSliceV, getRangeV_int, bind, Except.bind] at h
      cases h1 : b.checkRangeV F (.int i) (.int j) with
      | error x => rw [h1] at h; cases h; exact b.checkRangeV_refused F _ _ _ h1
      | ok _ =>
        have h2 := h1
        rw [checkRangeV_int] at h2
        simp only [h1, getRange, h2, needInt, bind, Except.bind, pure, Except.pure, Except.map,
          PyVal.sub, PyVal.add] at h
        cases h3 : b.checkValueV F (.int n) (.int (b.rindex j - b.rindex i + 1)) with
        | error x => rw [h3] at h; cases h; exact b.checkValueV_refused F _ _ (by simp) _ h3
        | ok _ =>
          cases h4 : b.bitmaskV F (.int i) (.int j) with
          | error x => rw [h3, h4] at h; cases h; exact b.bitmaskV_refused F _ _ _ h4
          | ok m =>
            rw [h3, h4] at h
            simp only [lsbIndexV_int, shiftV_int, PyVal.shl] at h
            split at h
            · rename_i h5; cases h; exact shl_refused h5
            · cases h
    · obtain ⟨e', h1, h2⟩ := b.newSliceV_bounds F s t v hf
      rw [h1] at h; cases h; exact h2
  · obtain ⟨e', h1, h2⟩ := b.newSliceV_value F s t v hv
    rw [h1] at h; cases h; exact h2

theorem assignV_errors (s t v : PyVal) (e : PyErr) (h : b.assignV F (.slice s t) v = .error e) :
    Refused e := by
  simp only [assignV, setitemV] at h
  cases h1 : b.newSliceV F s t v with
  | ok x => rw [h1] at h; cases h
  | error x => rw [h1] at h; cases h; exact b.newSliceV_errors F s t v _ h1

theorem setitemV_value (s t v : PyVal) (hv : ¬ ∃ n, v = .int n) :
    ∃ e, b.setitemV F (.slice s t) v = (b, .error e) ∧ Refused e := by
  obtain ⟨e, h, h'⟩ := b.newSliceV_value F s t v hv
  exact ⟨e, by simp only [setitemV, h], h'⟩

theorem assignV_value (s t v : PyVal) (hv : ¬ ∃ n, v = .int n) :
    ∃ e, b.assignV F (.slice s t) v = .error e ∧ Refused e := by
  obtain ⟨e, h, h'⟩ := b.setitemV_value F s t v hv
  exact ⟨e, by simp only [assignV, h], h'⟩

/-- The setter of a bit compares with 2 only. -/
theorem checkValueV_bit (i : Int) (hi : b.checkIndex (some i) = .ok ()) (v : PyVal) :
    b.checkValueV F v (.int 1) = (do if ← (PyVal.int 2).lt v then throw .valueError) := by
  have hw : 0 < b.width := by
    simp only [checkIndex, needInt, bind, Except.bind] at hi
    split at hi
    · cases hi
    · omega
  have h : ¬ b.maxval < 1 := by
    have : (2 : Int) ^ 1 ≤ 2 ^ b.width := by
      exact_mod_cast Nat.pow_le_pow_right (by norm_num) hw
    simp only [maxval]
    omega
  simp only [checkValueV, lt_int, h, PyVal.pow2, bind, Except.bind, decide_false,
    Bool.false_eq_true, if_false, pure, Except.pure, show ¬ (1 : Int) < 0 by omega,
    show H800.pow2 1 = 2 from rfl]
  cases (PyVal.int 2).lt v with
  | error _ => rfl
  | ok c => cases c <;> rfl

theorem newIndexV_bit (i : Int) (hi : b.checkIndex (some i) = .ok ()) (v : PyVal) :
    b.newIndexV F (.int i) v = (do
      if ← (PyVal.int 2).lt v then throw .valueError
      let m ← H800.shl 1 (b.shift (b.rindex i))
      if v.eqInt 1 then
        let up ← PyVal.shl v (.int (b.shift (b.rindex i)))
        return Int.lor b.value up
      else return Int.land b.value (b.maxval - m)) := by
  simp only [newIndexV, checkIndexV_int, hi, b.checkValueV_bit F i hi, rindexV_int, shiftV_int, bind,
    Except.bind]
  cases (PyVal.int 2).lt v with
  | error _ => rfl
  | ok c => cases c <;> rfl

theorem newIndexV_clears (i : Int) (hi : b.checkIndex (some i) = .ok ()) (v : PyVal)
    (h1 : (PyVal.int 2).lt v = .ok false) (h2 : v.eqInt 1 = false) :
    b.setitemV F (.idx (.int i)) v = b.setitem (.idx i) 0 := by
  have : b.newIndexV F (.int i) v = b.newIndexV F (.int i) (.int 0) := by
    rw [b.newIndexV_bit F i hi, b.newIndexV_bit F i hi, h1, h2]
    rfl
  rw [← b.setitemV_int F (.idx i) 0]
  simp only [Spec.keyOf, setitemV, this]

end BitField

open Spec in
theorem truncates_tdiv (q : Rat) : Truncates q (q.num.tdiv q.den) := by
  have hd : (0 : Int) < q.den := by exact_mod_cast q.den_pos
  constructor
  · intro h
    have hn : 0 ≤ q.num := Rat.num_nonneg.2 h
    have h1 : q.num.tdiv q.den = ⌊q⌋ := by rw [Rat.floor_def', Int.tdiv_eq_ediv_of_nonneg hn]
    rw [h1]
    exact ⟨Int.floor_le q, Int.lt_floor_add_one q⟩
  · intro h
    have hn : q.num ≤ 0 := Rat.num_nonpos.2 h
    have h1 : q.num.tdiv q.den = ⌈q⌉ := by
      rw [Rat.ceil_def']
      have : q.num = - (-q.num) := by omega
      rw [this, Int.neg_tdiv, Int.tdiv_eq_ediv_of_nonneg (by omega)]
      simp
    rw [h1]
    refine ⟨Int.le_ceil q, ?_⟩
    have := Int.ceil_lt_add_one q
    linarith

open Spec in
theorem truncates_unique (q : Rat) (m n : Int) (hm : Truncates q m) (hn : Truncates q n) : m = n := by
  rcases le_total 0 q with h | h
  · obtain ⟨a, b⟩ := hm.1 h
    obtain ⟨c, d⟩ := hn.1 h
    have e1 : (m : Rat) < n + 1 := by linarith
    have e2 : (n : Rat) < m + 1 := by linarith
    have e3 : m < n + 1 := by exact_mod_cast e1
    have e4 : n < m + 1 := by exact_mod_cast e2
    omega
  · obtain ⟨a, b⟩ := hm.2 h
    obtain ⟨c, d⟩ := hn.2 h
    have e1 : (m : Rat) < n + 1 := by linarith
    have e2 : (n : Rat) < m + 1 := by linarith
    have e3 : m < n + 1 := by exact_mod_cast e1
    have e4 : n < m + 1 := by exact_mod_cast e2
    omega

end H800
