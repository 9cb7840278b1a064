import Verif.Lemmas.Values
import Verif.Props.Word

/-!
Properties C213 and C214: the classes take ints only.
-/

namespace H800

open Spec

/-! ### C213: bit-fields -/

/-- C213 as stated: a bit-field that is given something else than an int to store, or to name a bit by,
raises and stays as it was. -/
def C213_statement : Prop := ∀ (F : FloatOps) (b : BitField) (c : BfCallV), Stray c →
  ∃ e, c.run F b = (b, .error e)

/-- C213 is false in three ways: the value setter cuts the fraction off, the setter of a bit takes a float
that is not 1 for 0, and `set` and `clear` take an index that counts as false for none. -/
theorem C213_refuted : ¬ C213_statement ∧
    (BfCallV.setValue (.float (.fin (7 / 2)))).run exactOps ⟨8, 0, .lsb0, .msbLeft⟩ =
      (⟨8, 3, .lsb0, .msbLeft⟩, .ok ()) ∧
    (BfCallV.put (.idx (.int 1)) (.float (.fin (3 / 2)))).run exactOps ⟨8, 3, .lsb0, .msbLeft⟩ =
      (⟨8, 1, .lsb0, .msbLeft⟩, .ok ()) ∧
    (BfCallV.set (.float (.fin 0))).run exactOps ⟨8, 3, .lsb0, .msbLeft⟩ =
      (⟨8, 255, .lsb0, .msbLeft⟩, .ok ()) := by
  have h : (BfCallV.setValue (.float (.fin (7 / 2)))).run exactOps ⟨8, 0, .lsb0, .msbLeft⟩ =
      (⟨8, 3, .lsb0, .msbLeft⟩, .ok ()) := by decide +kernel
  refine ⟨fun hs => ?_, h, by decide +kernel, by decide +kernel⟩
  obtain ⟨e, he⟩ := hs exactOps ⟨8, 0, .lsb0, .msbLeft⟩
    (.setValue (.float (.fin (7 / 2)))) (by rintro ⟨n, hn⟩; cases hn)
  rw [h] at he
  cases he

/-- C213: with ints, and None where the code allows it, these are the functions of the other properties. -/
theorem C213_agrees (F : FloatOps) (b : BitField) :
    (∀ i, b.getitemV F (keyOf (.idx i)) = b.getitem (.idx i)) ∧
    (∀ s e, b.getitemV F (keyOf (.slice s e)) = b.getitem (.slice s e)) ∧
    (∀ k x, b.setitemV F (keyOf k) (.int x) = b.setitem k x) ∧
    (∀ x, b.setValueV F (.int x) = b.setValue x) ∧
    (∀ i, b.setV F (.ofOpt i) = b.set i) ∧
    (∀ i, b.clearV F (.ofOpt i) = b.clear i) ∧
    (∀ i x, b.isBitV F (.int i) (.int x) = b.isBit i x) ∧
    (∀ s e x, b.isRangeV F (.ofOpt s) (.ofOpt e) (.int x) = b.isRange s e x) :=
  ⟨b.getIndexV_int F, b.getSliceV_opt F, b.setitemV_int F, b.setValueV_int F, b.setV_int F,
    b.clearV_int F, b.isBitV_int F, b.isRangeV_opt F⟩

/-- C213: a bit, or a bound of a range, that is not an int is always refused, with ValueError or
TypeError: also one like 2.0, whatever the arithmetic of floats. -/
theorem C213_index_partial (F : FloatOps) (b : BitField) (c : BfCallV) (hc : StrayIndex c) :
    ∃ e, c.run F b = (b, .error e) ∧ (e = .valueError ∨ e = .typeError) := by
  cases c with
  | get k =>
    cases k with
    | idx i =>
      obtain ⟨e, h, h'⟩ := b.getIndexV_refused F i hc
      exact ⟨e, by simp only [BfCallV.run, BitField.getitemV, h, Except.map], h'⟩
    | slice s t =>
      obtain ⟨e, h, h'⟩ := b.getSliceV_refused F s t hc
      exact ⟨e, by simp only [BfCallV.run, BitField.getitemV, h, Except.map], h'⟩
  | put k x =>
    cases k with
    | idx i =>
      obtain ⟨e, h, h'⟩ := b.newIndexV_index F i x hc
      exact ⟨e, by simp only [BfCallV.run, BitField.setitemV, h], h'⟩
    | slice s t =>
      obtain ⟨e, h, h'⟩ := b.newSliceV_bounds F s t x hc
      exact ⟨e, by simp only [BfCallV.run, BitField.setitemV, h], h'⟩
  | setValue x => exact hc.elim
  | set i =>
    simp only [BfCallV.run, BitField.setV, hc.2, if_true]
    cases h : b.checkIndexV F i with
    | error e => exact ⟨e, rfl, b.checkIndexV_refused F i e h⟩
    | ok _ =>
      obtain ⟨e, h, h'⟩ := b.newIndexV_index F i (.int 1) hc.1
      exact ⟨e, by simp only [BitField.setitemV, h], h'⟩
  | clear i =>
    simp only [BfCallV.run, BitField.clearV, hc.2, if_true]
    cases h : b.checkIndexV F i with
    | error e => exact ⟨e, rfl, b.checkIndexV_refused F i e h⟩
    | ok _ =>
      obtain ⟨e, h, h'⟩ := b.newIndexV_index F i (.int 0) hc.1
      exact ⟨e, by simp only [BitField.setitemV, h], h'⟩
  | isBit i x =>
    simp only [BfCallV.run, BitField.isBitV, bind, Except.bind]
    cases h : b.checkIndexV F i with
    | error e => exact ⟨e, rfl, b.checkIndexV_refused F i e h⟩
    | ok _ =>
      obtain ⟨e, h, h'⟩ := b.getIndexV_refused F i hc
      exact ⟨e, by simp only [h, Except.map], h'⟩
  | isRange s t x =>
    simp only [BfCallV.run, BitField.isRangeV, bind, Except.bind]
    cases h : b.checkRangeV F s t with
    | error e => exact ⟨e, rfl, b.checkRangeV_refused F s t e h⟩
    | ok _ =>
      by_cases hx : (!(x.eqInt 0 || x.eqInt 1)) = true
      · exact ⟨.valueError, by simp only [hx, if_true]; rfl, Or.inl rfl⟩
      · obtain ⟨e, h, h'⟩ := b.getSliceV_refused F s t hc
        exact ⟨e, by simp only [hx, h, Except.map]; rfl, h'⟩

example : (BfCallV.get (.idx (.float (.fin 2)))).run exactOps
    ⟨8, 255, .lsb0, .msbLeft⟩ = (⟨8, 255, .lsb0, .msbLeft⟩, .error .typeError) := by decide +kernel

/-- The float `q` names no bit of a field of width `w`: on the far side of the numbers of the bits there is
room of less than one. -/
def OutOfBits (w : Nat) (q : Rat) : Order → Numbering → Prop
  | .msbLeft, .lsb0 | .lsbLeft, .msb0 => q ≤ -1 ∨ w - 1 < q
  | .msbLeft, .lsb1 | .lsbLeft, .msb1 => q ≤ 0 ∨ w < q
  | .msbLeft, .msb0 | .lsbLeft, .lsb0 => q < 0 ∨ w ≤ q
  | .msbLeft, .msb1 | .lsbLeft, .lsb1 => q < 1 ∨ w + 1 ≤ q

theorem getIndexV_float {F : FloatOps} {b : BitField} {i : PyVal} {p : Rat}
    (h : b.rindexV F i = .ok (.float (.fin p))) :
    b.getitemV F (.idx i) = .error (if p < 0 ∨ b.width ≤ p then .valueError else .typeError) := by
  have hw : ((b.width : Int) : Rat) = (b.width : Rat) := Int.cast_natCast b.width
  have hc : (if p < 0 ∨ b.width ≤ p then PyErr.valueError else .typeError) =
      if p < 0 then .valueError else if (b.width : Rat) ≤ p then .valueError else .typeError := by
    by_cases h0 : p < 0 <;> simp [h0]
  rw [hc]
  simp only [BitField.getitemV, BitField.getIndexV, BitField.checkIndexV, h, py_bind_ok, PyVal.lt, PyVal.ge,
    PyVal.number, Flt.lt, Flt.le, py_pure, hw, Int.cast_zero]
  by_cases h0 : p < 0
  · simp only [h0, decide_true, if_true]
    rfl
  · by_cases h1 : (b.width : Rat) ≤ p
    · simp only [h0, h1, not_lt.2 h1, decide_false, Bool.not_false, if_true, if_false, Bool.false_eq_true]
      rfl
    · simp only [h0, h1, not_le.1 h1, decide_false, decide_true, Bool.not_true, py_bind_ok, if_false,
        Bool.false_eq_true]
      unfold BitField.shiftV
      cases b.order <;> rfl

/-- C213: which exception a float as a bit raises, if the sums are floats: ValueError outside the numbers of
the bits, and TypeError inside, also for 2.0. Infinities are outside; a NaN and what is no number is
TypeError. -/
theorem C213_which_partial (F : FloatOps) (b : BitField) :
    (∀ q : Rat, (∀ r ∈ [q + 1, q - 1, b.width - q, b.width - (q + 1)], F.round r = .fin r) →
      (OutOfBits b.width q b.order b.numbering →
        b.getitemV F (.idx (.float (.fin q))) = .error .valueError) ∧
      (¬ OutOfBits b.width q b.order b.numbering →
        b.getitemV F (.idx (.float (.fin q))) = .error .typeError)) ∧
    b.getitemV F (.idx (.float .inf)) = .error .valueError ∧
    b.getitemV F (.idx (.float .ninf)) = .error .valueError ∧
    b.getitemV F (.idx (.float .nan)) = .error .typeError ∧
    ∀ t, b.getitemV F (.idx (.other t)) = .error .typeError := by
  obtain ⟨w, v, n, o⟩ := b
  refine ⟨fun q h => ?_, ?_, ?_, ?_, fun t => ?_⟩
  · simp only [List.mem_cons, List.not_mem_nil, or_false, forall_eq_or_imp, forall_eq] at h
    obtain ⟨h1, h2, h3, h4⟩ := h
    have h2' : F.round (q + ((-1 : Int) : Rat)) = .fin (q - 1) := by
      rw [← h2]; congr 1; push_cast; ring
    have h1' : F.round (q + ((1 : Int) : Rat)) = .fin (q + 1) := by rw [← h1]; congr 1
    have hw : (((w : Nat) : Int) : Rat) = (w : Rat) := Int.cast_natCast w
    have key : ∀ p, BitField.rindexV F ⟨w, v, n, o⟩ (.float (.fin q)) = .ok (.float (.fin p)) →
        ((p < 0 ∨ w ≤ p) ↔ OutOfBits w q o n) →
        (OutOfBits w q o n → BitField.getitemV F ⟨w, v, n, o⟩ (.idx (.float (.fin q))) = .error .valueError) ∧
        (¬ OutOfBits w q o n →
          BitField.getitemV F ⟨w, v, n, o⟩ (.idx (.float (.fin q))) = .error .typeError) := by
      intro p hp hi
      have := getIndexV_float hp
      exact ⟨fun h => by rw [this, if_pos (hi.2 h)], fun h => by rw [this, if_neg (fun h' => h (hi.1 h'))]⟩
    rcases o with _ | _ <;> rcases n with _ | _ | _ | _ <;>
      simp only [BitField.rindexV, PyVal.add, PyVal.rsub, Flt.add, Flt.rsub, py_bind_ok, h1', h2', h3, h4, hw,
        Except.ok.injEq, PyVal.float.injEq, Flt.fin.injEq, forall_eq', OutOfBits] at key ⊢ <;>
      apply key <;> constructor <;> rintro (h | h) <;>
      first | (left; linarith) | (right; linarith)
  all_goals
    rcases o with _ | _ <;> rcases n with _ | _ | _ | _ <;> rfl

/-- Cases of C213: in a field of eight bits numbered from the right, -1/2 is TypeError and 15/2 ValueError;
numbered from the left it is the other way round. -/
example : BitField.getitemV exactOps ⟨8, 0, .lsb0, .msbLeft⟩ (.idx (.float (.fin (-1 / 2)))) = .error .typeError ∧
    BitField.getitemV exactOps ⟨8, 0, .lsb0, .msbLeft⟩ (.idx (.float (.fin (15 / 2)))) = .error .valueError ∧
    BitField.getitemV exactOps ⟨8, 0, .msb0, .msbLeft⟩ (.idx (.float (.fin (-1 / 2)))) = .error .valueError ∧
    BitField.getitemV exactOps ⟨8, 0, .msb0, .msbLeft⟩ (.idx (.float (.fin (15 / 2)))) = .error .typeError := by
  decide +kernel

/-- C213: a value stored in a range of bits is refused unless it is an int. -/
theorem C213_slice_partial (F : FloatOps) (b : BitField) (s t x : PyVal) (hx : ¬ IsInt x) :
    ∃ e, (BfCallV.put (.slice s t) x).run F b = (b, .error e) ∧
      (e = .valueError ∨ e = .typeError) := by
  obtain ⟨e, h, h'⟩ := b.newSliceV_value F s t x hx
  exact ⟨e, by simp only [BfCallV.run, BitField.setitemV, h], h'⟩

example : (BfCallV.put (.slice (.int 7) (.int 4)) (.float (.fin 2))).run exactOps
    ⟨8, 255, .lsb0, .msbLeft⟩ = (⟨8, 255, .lsb0, .msbLeft⟩, .error .typeError) := by decide +kernel

/-- C213: what the value setter does with something that is not an int. A float up to `2 ** width` loses
its fraction and is stored, also a negative one; everything else is refused. -/
theorem C213_value_partial (F : FloatOps) (b : BitField) :
    (∀ (q : Rat) (n : Int), q ≤ 2 ^ b.width → Truncates q n →
      b.setValueV F (.float (.fin q)) = ({ b with value := n }, .ok ())) ∧
    (∀ q : Rat, 2 ^ b.width < q → b.setValueV F (.float (.fin q)) = (b, .error .valueError)) ∧
    b.setValueV F (.float .inf) = (b, .error .valueError) ∧
    b.setValueV F (.float .ninf) = (b, .error .overflowError) ∧
    b.setValueV F (.float .nan) = (b, .error .valueError) ∧
    ∀ t, b.setValueV F (.other t) = (b, .error .typeError) := by
  have hp : ((2 ^ b.width : Int) : Rat) = 2 ^ b.width := by push_cast; rfl
  refine ⟨?_, ?_, ?_, ?_, ?_, ?_⟩
  · intro q n hq hn
    have h : ¬ ((2 ^ b.width : Rat) < q) := by linarith
    simp only [BitField.setValueV, BitField.checkValueV_whole, PyVal.lt, PyVal.number, bind,
      Except.bind, pure, Except.pure, Flt.lt, hp, h, decide_false, PyVal.toInt, Flt.toInt,
      truncates_unique q _ _ (truncates_tdiv q) hn, Bool.false_eq_true, if_false]
  · intro q hq
    simp only [BitField.setValueV, BitField.checkValueV_whole, PyVal.lt, PyVal.number, bind,
      Except.bind, pure, Except.pure, Flt.lt, hp, hq, decide_true, if_true, throw, throwThe,
      MonadExceptOf.throw]
  · simp only [BitField.setValueV, BitField.checkValueV_whole]; rfl
  · simp only [BitField.setValueV, BitField.checkValueV_whole]; rfl
  · simp only [BitField.setValueV, BitField.checkValueV_whole]; rfl
  · intro t
    simp only [BitField.setValueV, BitField.checkValueV_whole]; rfl

example : Truncates (-7 / 2) (-3) ∧ (-7 / 2 : Rat) ≤ 2 ^ 8 := by
  constructor
  · constructor
    · intro h; norm_num at h
    · intro _; norm_num
  · norm_num

/-- C213: what the setter of a bit does with something that is not an int. A float up to 2 clears the bit
unless it is 1.0, which is refused; a NaN and minus infinity clear it too. -/
theorem C213_bit_partial (F : FloatOps) (b : BitField) (i : Int)
    (hi : b.checkIndex (some i) = .ok ()) :
    (∀ q : Rat, q ≤ 2 → q ≠ 1 →
      b.setitemV F (.idx (.int i)) (.float (.fin q)) = b.setitem (.idx i) 0) ∧
    b.setitemV F (.idx (.int i)) (.float (.fin 1)) = (b, .error .typeError) ∧
    (∀ q : Rat, 2 < q → b.setitemV F (.idx (.int i)) (.float (.fin q)) = (b, .error .valueError)) ∧
    b.setitemV F (.idx (.int i)) (.float .inf) = (b, .error .valueError) ∧
    b.setitemV F (.idx (.int i)) (.float .ninf) = b.setitem (.idx i) 0 ∧
    b.setitemV F (.idx (.int i)) (.float .nan) = b.setitem (.idx i) 0 ∧
    ∀ t, b.setitemV F (.idx (.int i)) (.other t) = (b, .error .typeError) := by
  refine ⟨?_, ?_, ?_, ?_, ?_, ?_, ?_⟩
  · intro q hq h1
    refine b.newIndexV_clears F i hi _ ?_ ?_
    · have : ¬ ((2 : Rat) < q) := by linarith
      simp [PyVal.lt, PyVal.number, Flt.lt, this, bind, Except.bind, pure, Except.pure]
    · simp [PyVal.eqInt, h1]
  · have hs : ¬ b.shift (b.rindex i) < 0 := by
      simp only [BitField.checkIndex, BitField.needInt, bind, Except.bind] at hi
      split at hi
      · cases hi
      · simp only [BitField.shift]; split <;> omega
    have h2 : (PyVal.int 2).lt (.float (.fin 1)) = .ok false := by decide +kernel
    simp only [BitField.setitemV, b.newIndexV_bit F i hi, h2, H800.shl, hs, bind, Except.bind, if_false]
    rfl
  · intro q hq
    have h2 : (PyVal.int 2).lt (.float (.fin q)) = .ok true := by
      simp [PyVal.lt, PyVal.number, Flt.lt, hq, bind, Except.bind, pure, Except.pure]
    simp only [BitField.setitemV, b.newIndexV_bit F i hi, h2]
    rfl
  · simp only [BitField.setitemV, b.newIndexV_bit F i hi]; rfl
  · exact b.newIndexV_clears F i hi _ rfl rfl
  · exact b.newIndexV_clears F i hi _ rfl rfl
  · intro t
    simp only [BitField.setitemV, b.newIndexV_bit F i hi]; rfl

example : BitField.checkIndex ⟨8, 255, .lsb0, .msbLeft⟩ (some 3) = .ok () ∧
    BitField.setitem ⟨8, 255, .lsb0, .msbLeft⟩ (.idx 3) 0 =
      (⟨8, 247, .lsb0, .msbLeft⟩, .ok ()) := by decide +kernel

/-- C213: `set` and `clear` with an index that counts as false, such as 0.0 or an empty string, act on all
bits. -/
theorem C213_whole_partial (F : FloatOps) (b : BitField) (i : PyVal) (hi : i.truth = false) :
    (BfCallV.set i).run F b = ({ b with value := 2 ^ b.width - 1 }, .ok ()) ∧
    (BfCallV.clear i).run F b = ({ b with value := 0 }, .ok ()) := by
  simp [BfCallV.run, BitField.setV, BitField.clearV, hi, BitField.maxval]

example : PyVal.truth (.float (.fin 0)) = false ∧ PyVal.truth (.other false) = false ∧
    PyVal.truth (.float .nan) = true := by decide +kernel

/-- C213: the constructor takes a float that is at most `2 ** width - 1`, or a NaN, and stores it as it is. -/
theorem C213_made_partial (x : Flt) (width : Nat) (numbering order : Int) (r : BitField ⊕ FloatField) :
    BitField.initV (.float x) width numbering order = .ok r ↔
      width ≤ 64 ∧ (x = .nan ∨ x = .ninf ∨ ∃ q : Rat, x = .fin q ∧ q ≤ 2 ^ width - 1) ∧
      ∃ n o, BitField.numberingOf numbering = .ok n ∧ BitField.orderOf order = .ok o ∧
        r = .inr ⟨width, x, n, o⟩ := by
  have hp : ((2 ^ width - 1 : Int) : Rat) = 2 ^ width - 1 := by push_cast; rfl
  have hx : (Flt.lt (.fin ((2 ^ width - 1 : Int) : Rat)) x = false) ↔
      (x = .nan ∨ x = .ninf ∨ ∃ q : Rat, x = .fin q ∧ q ≤ 2 ^ width - 1) := by
    cases x <;> simp [Flt.lt]
  simp only [BitField.initV, PyVal.lt, PyVal.number, bind, Except.bind, pure, Except.pure]
  rw [← hx]
  by_cases hw : width ≤ 64
  · have hw' : ¬ width > BitField.MAX_WIDTH := by simp only [BitField.MAX_WIDTH]; omega
    rw [if_neg hw']
    cases Flt.lt (.fin ((2 ^ width - 1 : Int) : Rat)) x with
    | true => simp [throw, throwThe, MonadExceptOf.throw]
    | false =>
      simp only [Bool.false_eq_true, if_false]
      cases BitField.numberingOf numbering with
      | error e => simp
      | ok n =>
        cases BitField.orderOf order with
        | error e => simp
        | ok o => simp [hw, eq_comm]
  · have hw' : width > BitField.MAX_WIDTH := by simp only [BitField.MAX_WIDTH]; omega
    rw [if_pos hw']
    simp [hw, throw, throwThe, MonadExceptOf.throw]

example : BitField.initV (.float (.fin (7 / 2))) 8 0 1 = .ok (.inr ⟨8, .fin (7 / 2), .lsb0, .lsbLeft⟩) := by
  decide +kernel

/-- C213: with an int the constructor is the one of the other properties; a value that is no number is
refused with a TypeError, if the width is not refused before. -/
theorem C213_kinds_partial (width : Nat) (numbering order : Int) :
    (∀ v, BitField.initV (.int v) width numbering order =
      (BitField.init v width numbering order).map .inl) ∧
    (∀ x, width > 64 → BitField.initV x width numbering order = .error .valueError) ∧
    ∀ t, width ≤ 64 → BitField.initV (.other t) width numbering order = .error .typeError := by
  refine ⟨fun v => ?_, fun x hw => ?_, fun t hw => ?_⟩
  · simp only [BitField.initV, BitField.init, lt_int, bind, Except.bind, pure, Except.pure]
    by_cases hw : width > BitField.MAX_WIDTH
    · rw [if_pos hw, if_pos hw]; rfl
    · rw [if_neg hw, if_neg hw]
      by_cases hv : v > 2 ^ width - 1
      · rw [if_pos hv, if_pos (decide_eq_true hv)]; rfl
      · rw [if_neg hv, if_neg (by simpa using hv)]
        cases BitField.numberingOf numbering with
        | error e => rfl
        | ok n => cases BitField.orderOf order <;> rfl
  · rw [BitField.initV, if_pos (show width > BitField.MAX_WIDTH from hw)]; rfl
  · rw [BitField.initV, if_neg (show ¬ width > BitField.MAX_WIDTH from not_lt.2 hw)]; rfl

/-- C213: a bit-field that was made with a float has no bits to read, change or compare, and no int: only
the value setter and `set` and `clear` without an index work, and they make it a field like the others,
with the value that another field gets. What another field refuses is refused in the same way, and all
else is TypeError. Its value reads as the float without its fraction. -/
theorem C213_unusable_partial (F : FloatOps) (b : FloatField) (c : BfCallV) :
    ((∃ e, b.call F c = (.inr b, .error e)) ∨
      ∃ v, b.call F c = (.inl (b.plain v), .ok ()) ∧
        ((∃ x, c = .setValue x ∧ ∀ w, (b.plain w).setValueV F x = (b.plain v, .ok ())) ∨
          ∃ i, i.truth = false ∧ (c = .set i ∧ v = 2 ^ b.width - 1 ∨ c = .clear i ∧ v = 0))) ∧
    (∀ e, b.call F c = (.inr b, .error e) → (c.run F (b.plain 0)).2 = .error e ∨
      (c.run F (b.plain 0)).2 = .ok () ∧ e = .typeError) ∧
    (∀ q n, b.value = .fin q → Truncates q n → b.getValue = .ok n) ∧
    (b.value = .nan → b.getValue = .error .valueError) ∧
    (b.value = .inf ∨ b.value = .ninf → b.getValue = .error .overflowError) ∧
    b.toInt = .error .typeError := by
  refine ⟨?_, fun e h => ?_, ?_, fun h => by rw [FloatField.getValue, h]; rfl, fun h => ?_, rfl⟩
  · have hu : ∀ {α : Type} (r : Py α), ∃ e, FloatField.useBits r = .error e := by
      intro α r
      cases r <;> exact ⟨_, rfl⟩
    cases c with
    | get k =>
      obtain ⟨e, he⟩ := hu ((b.plain 0).getitemV F k)
      exact Or.inl ⟨e, by simp only [FloatField.call, he]⟩
    | put k x =>
      obtain ⟨e, he⟩ := hu ((b.plain 0).setitemV F k x).2
      exact Or.inl ⟨e, by simp only [FloatField.call, he]⟩
    | setValue x =>
      simp only [FloatField.call, BitField.setValueV]
      split
      · rename_i h
        split at h
        · rename_i hv
          cases h
          refine Or.inr ⟨_, rfl, Or.inl ⟨x, rfl, fun w => ?_⟩⟩
          have hw : ∀ y, (b.plain w).checkValueV F y (.int (b.plain w).width) =
            (b.plain 0).checkValueV F y (.int (b.plain 0).width) := fun _ => rfl
          rw [hw, hv]
          rfl
        · cases h
      · exact Or.inl ⟨_, rfl⟩
    | set i =>
      cases hi : i.truth with
      | true =>
        obtain ⟨e, he⟩ := hu ((b.plain 0).setV F i).2
        exact Or.inl ⟨e, by simp only [FloatField.call, hi, if_true, he]⟩
      | false =>
        exact Or.inr ⟨2 ^ b.width - 1, by simp [FloatField.call, hi], Or.inr ⟨i, hi, Or.inl ⟨rfl, rfl⟩⟩⟩
    | clear i =>
      cases hi : i.truth with
      | true =>
        obtain ⟨e, he⟩ := hu ((b.plain 0).clearV F i).2
        exact Or.inl ⟨e, by simp only [FloatField.call, hi, if_true, he]⟩
      | false =>
        exact Or.inr ⟨0, by simp [FloatField.call, hi], Or.inr ⟨i, hi, Or.inr ⟨rfl, rfl⟩⟩⟩
    | isBit i x =>
      obtain ⟨e, he⟩ := hu ((b.plain 0).isBitV F i x)
      exact Or.inl ⟨e, by simp only [FloatField.call, he]⟩
    | isRange s t x =>
      obtain ⟨e, he⟩ := hu ((b.plain 0).isRangeV F s t x)
      exact Or.inl ⟨e, by simp only [FloatField.call, he]⟩
  · have hu : ∀ {α : Type} (r : Py α), FloatField.useBits r = .error e →
        r.map (fun _ => ()) = .error e ∨ r.map (fun _ => ()) = .ok () ∧ e = .typeError := by
      intro α r hr
      cases r with
      | error e' => cases hr; exact Or.inl rfl
      | ok a => cases hr; exact Or.inr ⟨rfl, rfl⟩
    have hid : ∀ r : Py Unit, r.map (fun _ => ()) = r := fun r => by cases r <;> rfl
    cases c with
    | get k => exact hu _ (Prod.mk.inj h).2
    | put k x => simpa only [BfCallV.run, hid] using hu _ (Prod.mk.inj h).2
    | setValue x =>
      simp only [FloatField.call] at h
      rcases hv : (b.plain 0).setValueV F x with ⟨b', e' | u⟩
      · rw [hv] at h
        simp only [Prod.mk.injEq, Except.error.injEq, true_and] at h
        exact Or.inl (by simp only [BfCallV.run, hv, h])
      · rw [hv] at h; cases h
    | set i =>
      simp only [FloatField.call] at h
      split at h
      · simpa only [BfCallV.run, hid] using hu _ (Prod.mk.inj h).2
      · cases h
    | clear i =>
      simp only [FloatField.call] at h
      split at h
      · simpa only [BfCallV.run, hid] using hu _ (Prod.mk.inj h).2
      · cases h
    | isBit i x => exact hu _ (Prod.mk.inj h).2
    | isRange s t x => exact hu _ (Prod.mk.inj h).2
  · intro q n hq hn
    rw [FloatField.getValue, hq, Flt.toInt, truncates_unique q _ _ (truncates_tdiv q) hn]
  · rcases h with h | h <;> rw [FloatField.getValue, h] <;> rfl

example : FloatField.call exactOps ⟨8, .fin (7 / 2), .lsb0, .lsbLeft⟩ (.get (.idx (.int 3))) =
    (.inr ⟨8, .fin (7 / 2), .lsb0, .lsbLeft⟩, .error .typeError) := by decide +kernel

/-! ### C214: words, registers and memory -/

/-- C214 as stated: words, registers and memory refuse to store what is not an int. -/
def C214_statement : Prop := ∀ (F : FloatOps) (x : PyVal), ¬ IsInt x →
  (∃ e, Word.initV F x = .error e) ∧
  (∀ w, IsWord w → ∃ e, w.setValueV F x = (w, .error e)) ∧
  (∀ w f, IsWord w → ∃ e, InstructionWord.setV F w f x = (w, .error e)) ∧
  (∀ name width, ∃ e, Register.initV F x name width = .error e) ∧
  (∀ r : Register, ∃ e, r.setValueV F x = (r, .error e)) ∧
  ∀ (m : MemoryBank) (a : Int), (∀ w ∈ m.words, IsWord w) → ∃ e, m.setV F a x = (m, .error e)

/-- C214 is false: the value of a word, and so a word of memory, takes a float and cuts its fraction off. -/
theorem C214_refuted : ¬ C214_statement ∧
    Word.setValueV exactOps ⟨⟨48, 7, .msb1, .msbLeft⟩⟩ (.float (.fin (7 / 2))) =
      (⟨⟨48, 3, .msb1, .msbLeft⟩⟩, .ok ()) ∧
    MemoryBank.setV exactOps ⟨[⟨⟨48, 7, .msb1, .msbLeft⟩⟩], 0⟩ 0 (.float (.fin (7 / 2))) =
      (⟨[⟨⟨48, 3, .msb1, .msbLeft⟩⟩], 0⟩, .ok ()) := by
  have h : Word.setValueV exactOps ⟨⟨48, 7, .msb1, .msbLeft⟩⟩ (.float (.fin (7 / 2))) =
      (⟨⟨48, 3, .msb1, .msbLeft⟩⟩, .ok ()) := by decide +kernel
  refine ⟨fun hs => ?_, h, by decide +kernel⟩
  obtain ⟨e, he⟩ := (hs exactOps (.float (.fin (7 / 2))) (by rintro ⟨n, hn⟩; cases hn)).2.1
    ⟨⟨48, 7, .msb1, .msbLeft⟩⟩ ⟨rfl, rfl, rfl⟩
  rw [h] at he
  cases he

theorem assignV_int (F : FloatOps) (b : BitField) (k : Key) (x : Int) :
    b.assignV F (keyOf k) (.int x) = b.assign k x := by
  rw [BitField.assignV, BitField.assign, b.setitemV_int F]
  rcases b.setitem k x with ⟨b', _ | _⟩ <;> rfl

theorem refusesV_int (v : Int) (w : Nat) :
    Register.refusesV (.int v) w = .ok (decide (v < 0 ∨ v > 2 ^ w - 1)) := by
  simp only [Register.refusesV, lt_int, bind, Except.bind, pure, Except.pure]
  by_cases h : v < 0
  · simp [h]
  · simp [h]

theorem word_refusesV (v : PyVal) : Word.refusesV v = Register.refusesV v 48 := rfl

/-- C214: with ints these are the functions of the other properties. -/
theorem C214_agrees (F : FloatOps) :
    (∀ v, Word.initV F (.int v) = Word.init v) ∧
    (∀ w v, Word.setValueV F w (.int v) = w.setValue v) ∧
    (∀ c a b d, InstructionWord.initV F (.int c) (.int a) (.int b) (.int d) =
      InstructionWord.init c a b d) ∧
    (∀ w f v, InstructionWord.setV F w f (.int v) = InstructionWord.set w f v) ∧
    (∀ v name width, Register.initV F (.int v) name (width : Nat) = Register.init v name width) ∧
    (∀ r v, Register.setValueV F r (.int v) = r.setValue v) ∧
    (∀ r k v, Register.setitemV F r (keyOf k) (.int v) = r.setitem k v) ∧
    (∀ m a v, MemoryBank.setV F m a (.int v) = m.set a v) ∧
    ∀ m s e v, MemoryBank.setSliceV F m (.ofOpt s) (.ofOpt e) (.int v) = m.setSlice s e v := by
  have hk : ∀ f, InstructionWord.keyV f = keyOf f.key := by intro f; cases f <;> rfl
  have hset : ∀ (w : Word) (v : Int), Word.setValueV F w (.int v) = w.setValue v := by
    intro w v
    simp only [Word.setValueV, Word.setValue, word_refusesV, refusesV_int, w.data.setValueV_int F]
    by_cases h : v < 0 ∨ v > 2 ^ 48 - 1
    · simp only [h, decide_true, if_true]
    · simp only [h, decide_false, if_false]
  have hbank : ∀ (m : MemoryBank) (a v : Int), MemoryBank.setV F m a (.int v) = m.set a v := by
    intro m a v
    simp only [MemoryBank.setV, MemoryBank.set, hset]
    cases m.word a <;> rfl
  have hlist : ∀ (l : List Int) (m : MemoryBank) (v : Int),
      MemoryBank.setListV F m (.int v) l = m.setList v l := by
    intro l
    induction l with
    | nil => intro m v; rfl
    | cons a l ih =>
      intro m v
      simp only [MemoryBank.setListV, MemoryBank.setList, hbank]
      rcases m.set a v with ⟨m', _ | _⟩
      · rfl
      · exact ih m' v
  refine ⟨?_, hset, ?_, ?_, ?_, ?_, ?_, hbank, ?_⟩
  · intro v
    simp only [Word.initV, Word.init, word_refusesV, refusesV_int]
    have := fun b => assignV_int F b (.slice (some 1) (some 48)) v
    simp only [keyOf, PyVal.ofOpt] at this
    simp only [this, bind, Except.bind]
    by_cases h : v < 0 ∨ v > 2 ^ 48 - 1
    · simp only [h, decide_true, if_true]
    · simp only [h, decide_false, Bool.false_eq_true, if_false]
  · intro c a b d
    simp only [InstructionWord.initV, InstructionWord.init, hk, assignV_int]
  · intro w f v
    simp only [InstructionWord.setV, InstructionWord.set, hk, w.data.setitemV_int F]
  · intro v name width
    simp only [Register.initV, Register.init, refusesV_int, bind, Except.bind, Int.toNat_natCast]
    have := fun b => assignV_int F b (.slice (some 1) (some width)) v
    simp only [keyOf, PyVal.ofOpt] at this
    simp only [this]
    rw [if_neg (show ¬ (width : Int) < 0 by omega)]
    by_cases h : v < 0 ∨ v > 2 ^ width - 1
    · simp only [h, decide_true, if_true]; rfl
    · simp only [h, decide_false, Bool.false_eq_true, if_false]
      by_cases hn : name.getD [] ≠ [] ∧ name.getD [] ∉ REGISTER_NAMES
      · rw [if_pos hn, if_pos hn]; rfl
      · rw [if_neg hn, if_neg hn]
        by_cases hw : width ≠ 16 ∧ width ≠ 24
        · rw [if_pos hw, if_pos (by omega)]; rfl
        · rw [if_neg hw, if_neg (by omega)]
  · intro r v
    have := r.data.setitemV_int F (.slice (some 1) (some r.width)) v
    simp only [keyOf, PyVal.ofOpt] at this
    simp only [Register.setValueV, Register.setValue, refusesV_int, this]
    by_cases h : v < 0 ∨ v > 2 ^ r.width - 1
    · simp only [h, decide_true, if_true]
    · simp only [h, decide_false, if_false]
  · intro r k v
    simp only [Register.setitemV, Register.setitem, r.data.setitemV_int F]
  · intro m s e v
    cases s <;> cases e <;>
      simp only [MemoryBank.setSliceV, MemoryBank.setSlice, PyVal.ofOpt, PyVal.none,
        BitField.needInt, hlist]

/-- C214: the constructors, the fields of an instruction word, the value of a register and its ranges of
bits refuse everything that is not an int, with ValueError or TypeError. -/
theorem C214_refused_partial (F : FloatOps) (x : PyVal) (hx : ¬ IsInt x) :
    (∃ e, Word.initV F x = .error e ∧ (e = .valueError ∨ e = .typeError)) ∧
    (∀ w f, ∃ e, InstructionWord.setV F w f x = (w, .error e) ∧ (e = .valueError ∨ e = .typeError)) ∧
    (∀ c a b d, x = c ∨ x = a ∨ x = b ∨ x = d → ∃ e, InstructionWord.initV F c a b d = .error e ∧
      (e = .valueError ∨ e = .typeError)) ∧
    (∀ name width, ∃ e, Register.initV F x name width = .error e ∧
      (e = .valueError ∨ e = .typeError)) ∧
    (∀ r : Register, ∃ e, r.setValueV F x = (r, .error e) ∧ (e = .valueError ∨ e = .typeError)) ∧
    ∀ (r : Register) s t, ∃ e, r.setitemV F (.slice s t) x = (r, .error e) ∧
      (e = .valueError ∨ e = .typeError) := by
  have hr : ∀ (v : PyVal) (n : Nat) (e : PyErr), Register.refusesV v n = .error e → e = .typeError := by
    intro v n e h
    cases v <;>
      simp only [Register.refusesV, PyVal.lt, PyVal.number, bind, Except.bind, pure, Except.pure] at h
    · split at h <;> cases h
    · split at h <;> cases h
    · cases h; rfl
  refine ⟨?_, ?_, ?_, ?_, ?_, ?_⟩
  · simp only [Word.initV, word_refusesV, bind, Except.bind]
    cases h : Register.refusesV x 48 with
    | error e => exact ⟨e, rfl, Or.inr (hr x 48 e h)⟩
    | ok c =>
      cases c with
      | true => exact ⟨_, rfl, Or.inl rfl⟩
      | false =>
        obtain ⟨e, he, h'⟩ := (⟨48, 0, .msb1, .msbLeft⟩ : BitField).assignV_value F (.int 1) (.int 48) x hx
        refine ⟨e, ?_, h'⟩
        simp only [Bool.false_eq_true, if_false,
          show BitField.init 0 48 3 0 = .ok ⟨48, 0, .msb1, .msbLeft⟩ from rfl, he]
  · intro w f
    have : ∃ s t, InstructionWord.keyV f = .slice s t := by cases f <;> exact ⟨_, _, rfl⟩
    obtain ⟨s, t, hk⟩ := this
    obtain ⟨e, he, h'⟩ := w.data.setitemV_value F s t x hx
    exact ⟨e, by simp only [InstructionWord.setV, hk, he], h'⟩
  · intro c a b d h
    have hw : Word.init 0 = .ok ⟨⟨48, 0, .msb1, .msbLeft⟩⟩ := rfl
    simp only [InstructionWord.initV, hw, bind, Except.bind, InstructionWord.keyV]
    have key : ∀ (d : BitField) (s t v : PyVal), (∃ e, d.assignV F (.slice s t) v = .error e ∧
        BitField.Refused e) ∨ ((∃ d', d.assignV F (.slice s t) v = .ok d') ∧ v ≠ x) := by
      intro d s t v
      cases h1 : d.assignV F (.slice s t) v with
      | error e => exact Or.inl ⟨e, rfl, d.assignV_errors F s t v e h1⟩
      | ok d' =>
        refine Or.inr ⟨⟨d', rfl⟩, ?_⟩
        rintro rfl
        obtain ⟨e, he, -⟩ := d.assignV_value F s t v hx
        rw [he] at h1; cases h1
    rcases key ⟨48, 0, .msb1, .msbLeft⟩ (.int 1) (.int 12) c with ⟨e, h1, h'⟩ | ⟨⟨d1, h1⟩, n1⟩
    · exact ⟨e, by simp only [h1], h'⟩
    rw [h1]
    rcases key d1 (.int 13) (.int 24) a with ⟨e, h2, h'⟩ | ⟨⟨d2, h2⟩, n2⟩
    · exact ⟨e, by simp only [h2], h'⟩
    simp only [h2]
    rcases key d2 (.int 25) (.int 36) b with ⟨e, h3, h'⟩ | ⟨⟨d3, h3⟩, n3⟩
    · exact ⟨e, by simp only [h3], h'⟩
    simp only [h3]
    rcases key d3 (.int 37) (.int 48) d with ⟨e, h4, h'⟩ | ⟨⟨d4, h4⟩, n4⟩
    · exact ⟨e, by simp only [h4], h'⟩
    rcases h with h | h | h | h <;> exact absurd h.symm ‹_›
  · intro name width
    simp only [Register.initV, bind, Except.bind]
    cases h : Register.refusesV x width with
    | error e => exact ⟨e, rfl, Or.inr (hr x width e h)⟩
    | ok c =>
      cases c with
      | true => exact ⟨_, rfl, Or.inl rfl⟩
      | false =>
        simp only [Bool.false_eq_true, if_false]
        by_cases hn : name.getD [] ≠ [] ∧ name.getD [] ∉ REGISTER_NAMES
        · exact ⟨.valueError, by rw [if_pos hn]; rfl, Or.inl rfl⟩
        · rw [if_neg hn]
          by_cases hw : width ≠ 16 ∧ width ≠ 24
          · exact ⟨.valueError, by rw [if_pos hw]; rfl, Or.inl rfl⟩
          · rw [if_neg hw]
            have hb : BitField.init 0 width 3 0 = .ok ⟨width, 0, .msb1, .msbLeft⟩ := by
              have : width = 16 ∨ width = 24 := by omega
              rcases this with rfl | rfl <;> rfl
            obtain ⟨e, he, h'⟩ :=
              (⟨width, 0, .msb1, .msbLeft⟩ : BitField).assignV_value F (.int 1) (.int width) x hx
            exact ⟨e, by simp only [hb, he], h'⟩
  · intro r
    simp only [Register.setValueV]
    cases h : Register.refusesV x r.width with
    | error e => exact ⟨e, rfl, Or.inr (hr x _ e h)⟩
    | ok c =>
      cases c with
      | true => exact ⟨_, rfl, Or.inl rfl⟩
      | false =>
        obtain ⟨e, he, h'⟩ := r.data.setitemV_value F (.int 1) (.int r.width) x hx
        exact ⟨e, by simp only [he], h'⟩
  · intro r s t
    obtain ⟨e, he, h'⟩ := r.data.setitemV_value F s t x hx
    exact ⟨e, by simp only [Register.setitemV, he], h'⟩

example : Word.initV exactOps (.float (.fin 2)) = .error .typeError ∧
    Register.initV exactOps (.float (.fin 2)) none 16 = .error .typeError := by decide +kernel

/-- C214: the value of a word takes a float from 0 to `2 ** 48 - 1` without its fraction; it refuses every
other thing that is not an int. -/
theorem C214_word_partial (F : FloatOps) (w : Word) (hw : IsWord w) :
    (∀ (q : Rat) (n : Int), 0 ≤ q → q ≤ 2 ^ 48 - 1 → Truncates q n →
      w.setValueV F (.float (.fin q)) = w.setValue n ∧
        w.setValue n = (⟨{ w.data with value := n }⟩, .ok ())) ∧
    (∀ q : Rat, ¬ (0 ≤ q ∧ q ≤ 2 ^ 48 - 1) →
      w.setValueV F (.float (.fin q)) = (w, .error .valueError)) ∧
    w.setValueV F (.float .inf) = (w, .error .valueError) ∧
    w.setValueV F (.float .ninf) = (w, .error .valueError) ∧
    w.setValueV F (.float .nan) = (w, .error .valueError) ∧
    ∀ t, w.setValueV F (.other t) = (w, .error .typeError) := by
  obtain ⟨v1, v2, v3, v4, v5, v6⟩ := C213_value_partial F w.data
  refine ⟨?_, ?_, ?_, ?_, ?_, ?_⟩
  · intro q n h0 h1 hn
    have hb := hn.1 h0
    have n0 : 0 ≤ n := by
      have : (0 : Rat) < n + 1 := by linarith
      have : (0 : Int) < n + 1 := by exact_mod_cast this
      omega
    have n1 : n ≤ 2 ^ 48 - 1 := by
      have : (n : Rat) ≤ 2 ^ 48 - 1 := by linarith
      exact_mod_cast this
    have hr : Word.refusesV (.float (.fin q)) = .ok false := by
      have e1 : ¬ q < 0 := by linarith
      have e2 : ¬ ((2 ^ 48 - 1 : Int) : Rat) < q := by push_cast; linarith
      simp only [Word.refusesV, PyVal.lt, PyVal.number, Flt.lt, bind, Except.bind, pure, Except.pure,
        Int.cast_zero, e1, e2, decide_false, Bool.false_eq_true, if_false]
    have hs : w.setValue n = (⟨{ w.data with value := n }⟩, .ok ()) := by
      rw [Word.setValue, if_neg (by omega), BitField.setValue]
      have : w.data.checkValue n none = .ok () := by
        simp only [BitField.checkValue, Option.getD_none, BitField.maxval, hw.1, pow2, bind, Except.bind]
        rw [if_neg (by norm_num), if_neg (by
          have : (2 : Int) ^ (((48 : Nat) : Int).toNat) = 2 ^ 48 := rfl
          omega)]
        rfl
      rw [this]
    refine ⟨?_, hs⟩
    rw [hs, Word.setValueV, hr]
    simp only [v1 q n (by rw [hw.1]; linarith) hn]
  · intro q hq
    have hr : Word.refusesV (.float (.fin q)) = .ok true := by
      simp only [Word.refusesV, PyVal.lt, PyVal.number, Flt.lt, bind, Except.bind, pure, Except.pure,
        Int.cast_zero]
      by_cases e1 : q < 0
      · simp [e1]
      · have e2 : ((2 ^ 48 - 1 : Int) : Rat) < q := by
          by_contra h
          push_cast at h
          exact hq ⟨by linarith, by linarith⟩
        simp only [e1, e2, decide_false, decide_true, Bool.false_eq_true, if_false]
    rw [Word.setValueV, hr]
  · rfl
  · rfl
  · have hr : Word.refusesV (.float .nan) = .ok false := rfl
    rw [Word.setValueV, hr]
    simp only [v5]
  · intro t
    rfl

example : IsWord ⟨⟨48, 7, .msb1, .msbLeft⟩⟩ ∧ (0 : Rat) ≤ 7 / 2 ∧ (7 / 2 : Rat) ≤ 2 ^ 48 - 1 :=
  ⟨⟨rfl, rfl, rfl⟩, by norm_num, by norm_num⟩

/-- C214: so does each word of a memory bank, and all the words of a range of addresses. -/
theorem C214_bank_partial (F : FloatOps) (m : MemoryBank) (hm : ∀ w ∈ m.words, IsWord w)
    (q : Rat) (n : Int) (h0 : 0 ≤ q) (h1 : q ≤ 2 ^ 48 - 1) (hn : Truncates q n) :
    (∀ a, m.setV F a (.float (.fin q)) = m.set a n) ∧
    ∀ s e, m.setSliceV F (.ofOpt s) (.ofOpt e) (.float (.fin q)) = m.setSlice s e n := by
  have hset : ∀ (m : MemoryBank), (∀ w ∈ m.words, IsWord w) → ∀ a,
      m.setV F a (.float (.fin q)) = m.set a n ∧ ∀ w ∈ (m.set a n).1.words, IsWord w := by
    intro m hm a
    simp only [MemoryBank.setV, MemoryBank.set]
    cases h : m.word a with
    | error e => exact ⟨rfl, hm⟩
    | ok w =>
      have hw : IsWord w := by
        rw [MemoryBank.word] at h
        split at h
        · cases h
        · split at h
          · rename_i heq; cases h; exact hm w (List.mem_of_getElem? heq)
          · cases h
      obtain ⟨e1, e2⟩ := (C214_word_partial F w hw).1 q n h0 h1 hn
      refine ⟨by simp only [e1], ?_⟩
      simp only [e2]
      intro w' hw'
      rcases List.mem_or_eq_of_mem_set hw' with h | rfl
      · exact hm w' h
      · exact hw
  refine ⟨fun a => (hset m hm a).1, ?_⟩
  have hlist : ∀ (l : List Int) (m : MemoryBank), (∀ w ∈ m.words, IsWord w) →
      m.setListV F (.float (.fin q)) l = m.setList n l := by
    intro l
    induction l with
    | nil => intro m _; rfl
    | cons a l ih =>
      intro m hm
      obtain ⟨e1, e2⟩ := hset m hm a
      simp only [MemoryBank.setListV, MemoryBank.setList, e1]
      rcases h : m.set a n with ⟨m', _ | _⟩
      · rfl
      · rw [h] at e2
        exact ih m' e2
  intro s e
  cases s <;> cases e <;>
    simp only [MemoryBank.setSliceV, MemoryBank.setSlice, PyVal.ofOpt, PyVal.none,
      BitField.needInt, hlist _ m hm]

example : (∀ w ∈ [(⟨⟨48, 7, .msb1, .msbLeft⟩⟩ : Word)], IsWord w) ∧ Truncates (7 / 2) 3 := by
  refine ⟨by simp [IsWord], ?_, ?_⟩
  · intro _; norm_num
  · intro h; norm_num at h

end H800
