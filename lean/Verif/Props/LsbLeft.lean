import Verif.Props.BitFieldMore
import Verif.Spec.LsbLeft

/-!
Properties C142 and C143: histories and range predicates of LSB-left bit-fields.
-/

namespace H800

open Spec BitField

/-! ### Auxiliary facts -/

theorem setitem_odd (b : BitField) (s e x : Int) (ho : b.order = .lsbLeft)
    (hb : Fits b.width b.value) (hx : Fits ((b.wt s - b.wt e).natAbs + 1) x) (k : Nat)
    (hk : k < b.width) :
    bitOf (b.setitem (.slice (some s) (some e)) x).1.value k =
      BitArray.stepOdd b.numbering.code b.width (fun k => bitOf b.value k)
        (.setitem (.slice (some s) (some e)) x) k := by
  simp only [BitArray.stepOdd]
  by_cases hr : b.RangeOk s e
  · obtain ⟨lo, n, hspan⟩ := (rangeOk_iff b s e).1 hr
    obtain ⟨h1, h2, h3⟩ := hspan
    rw [ho] at h3
    obtain ⟨hs, he⟩ := h3
    have hn : (b.wt s - b.wt e).natAbs + 1 = n := by omega
    rw [hn] at hx
    have hs' : weightExp b.numbering.code b.width s = lo := hs
    have he' : weightExp b.numbering.code b.width e = lo + n - 1 := he
    rw [hs', he', if_pos (by omega)]
    by_cases hnw : n = b.width
    · have hlo : lo = 0 := by omega
      rw [if_pos (by omega)]
      obtain ⟨-, b', w1, w2, -⟩ := C06_lsbLeft_partial b s e x lo n ho h1 h2 hs he hb hx (Or.inr hnw)
      have hcfg : b' = { b with value := b'.value } := by
        have := setitem_shape b (.slice (some s) (some e)) x
        rw [w1] at this
        exact this
      have hfit : Fits b.width b'.value := by
        have := fits_step b (.setitem (.slice (some s) (some e)) x) hb (by
          show Fits ((b.wt s - b.wt e).natAbs + 1) x
          rw [hn]; exact hx)
        simp only [BfOp.run, w1] at this
        exact this
      obtain ⟨r1, -⟩ := C06_lsbLeft_partial b' s e x lo n (by rw [hcfg]; exact ho) h1
        (by rw [hcfg]; exact h2) (by rw [hcfg]; exact hs) (by rw [hcfg]; exact he)
        (by rw [hcfg]; exact hfit) hx (Or.inr (by rw [hcfg]; exact hnw))
      rw [w2, hlo] at r1
      injection r1 with r1
      rw [pow_zero, Int.ediv_one, hnw, Int.emod_eq_of_lt hfit.1 hfit.2] at r1
      rw [w1, r1]
    · rw [if_neg (by omega)]
      obtain ⟨b', w1, w2⟩ := C06_exact_write b s e x lo n ho h1 h2 hnw hs he hx
      rw [w1]
      have h3 : (lo : Int).toNat = lo := by omega
      have h4 : ((lo : Int) + n - 1 - lo + 1).toNat = n := by omega
      rw [h3, h4]
      exact w2 k hk
  · have hng : ¬ (0 ≤ weightExp b.numbering.code b.width s ∧
        weightExp b.numbering.code b.width s ≤ weightExp b.numbering.code b.width e ∧
        weightExp b.numbering.code b.width e < b.width) := by
      intro hc
      change 0 ≤ b.wt s ∧ b.wt s ≤ b.wt e ∧ b.wt e < b.width at hc
      apply hr
      rw [rangeOk_iff]
      refine ⟨(b.wt s).toNat, (b.wt e - b.wt s + 1).toNat, by omega, by omega, ?_⟩
      rw [ho]
      constructor <;> omega
    rw [if_neg hng]
    have hc := checkRange_some b s e
    rw [if_neg hr] at hc
    have : b.newSlice (some s) (some e) x = .error .valueError := by
      unfold newSlice; simp only [hc, py_bind_error]
    rw [setitem_slice_error this]

theorem stepOdd_run (b : BitField) (op : BfOp) (ho : b.order = .lsbLeft) (hb : Fits b.width b.value)
    (h : OpFits b.numbering.code b.width op) (k : Nat) (hk : k < b.width) :
    bitOf (op.run b).1.value k =
      BitArray.stepOdd b.numbering.code b.width (fun k => bitOf b.value k) op k := by
  have other : (∀ s e x, op ≠ .setitem (.slice (some s) (some e)) x) →
      bitOf (op.run b).1.value k =
        BitArray.step b.numbering.code b.width (fun k => bitOf b.value k) op k := by
    intro hne
    -- the order does not matter for the other operations
    cases op with
    | setitem key x =>
      cases key with
      | idx i => exact setitem_bit_index b i x hb h k
      | slice s e =>
        cases s with
        | none => rfl
        | some s =>
          cases e with
          | none =>
            have : ∃ err, b.newSlice (some s) none x = .error err := by
              unfold newSlice checkRange
              rw [checkIndex_some]
              split
              · exact ⟨.typeError, rfl⟩
              · exact ⟨.valueError, rfl⟩
            obtain ⟨err, he⟩ := this
            simp only [BfOp.run, setitem_slice_error he, BitArray.step]
          | some e => exact absurd rfl (hne s e x)
    | setValue x =>
      have h' : Fits b.width x := h
      have h1 := C08_acceptance_partial.2.1 b x
      rw [if_pos (le_of_lt h'.2)] at h1
      simp only [BfOp.run, BitArray.step]
      unfold BitField.setValue at h1 ⊢
      cases hc : b.checkValue x none with
      | ok u => rfl
      | error e => rw [hc] at h1; cases h1
    | set i =>
      cases i with
      | none => exact bitOf_maxval b k hk
      | some i =>
        simp only [BfOp.run, BitField.set, BitArray.step, BitArray.fill]
        by_cases h0 : i = 0
        · rw [if_pos h0, if_pos h0]; exact bitOf_maxval b k hk
        · rw [if_neg h0, if_neg h0, ← setitem_bit_index b i 1 hb (by decide) k, checkIndex_some]
          by_cases hv : 0 ≤ b.wt i ∧ b.wt i < b.width
          · rw [if_pos hv]
          · rw [if_neg hv, C03_bit_write_invalid b i 1 hv]
    | clear i =>
      cases i with
      | none => simp [BfOp.run, BitField.clear, BitArray.step, BitArray.fill, bitOf]
      | some i =>
        simp only [BfOp.run, BitField.clear, BitArray.step, BitArray.fill]
        by_cases h0 : i = 0
        · rw [if_pos h0, if_pos h0]; simp [bitOf]
        · rw [if_neg h0, if_neg h0, ← setitem_bit_index b i 0 hb (by decide) k, checkIndex_some]
          by_cases hv : 0 ≤ b.wt i ∧ b.wt i < b.width
          · rw [if_pos hv]
          · rw [if_neg hv, C03_bit_write_invalid b i 0 hv]
  cases op with
  | setitem key x =>
    cases key with
    | idx i => exact other (by intro s e x e'; cases e')
    | slice s e =>
      cases s with
      | none => exact other (by intro s e x e'; cases e')
      | some s =>
        cases e with
        | none => exact other (by intro s e x e'; cases e')
        | some e => exact setitem_odd b s e x ho hb h k hk
  | setValue x => exact other (by intro s e x e'; cases e')
  | set i => exact other (by intro s e x e'; cases e')
  | clear i => exact other (by intro s e x e'; cases e')

theorem stepOdd_congr (scheme W : Nat) (a a' : BitArray) (op : BfOp) (k : Nat) (h : a k = a' k) :
    BitArray.stepOdd scheme W a op k = BitArray.stepOdd scheme W a' op k := by
  unfold BitArray.stepOdd
  split
  · split
    · split
      · rfl
      · simp only [BitArray.oddWrite, h]
    · exact h
  · exact bitArray_step_congr scheme W a a' _ k h

/-- On bits, plain operations have the effect they are meant to have. -/
theorem stepOdd_plain (scheme W : Nat) (a : BitArray) (ha : ∀ k, a k = 0 ∨ a k = 1) (op : BfOp)
    (hp : PlainOp scheme W op) (hf : OpFits scheme W op) (k : Nat) (hk : k < W) :
    BitArray.stepOdd scheme W a op k = BitArray.stepLeft scheme W a op k := by
  unfold BitArray.stepOdd BitArray.stepLeft
  split
  · rename_i s e x
    simp only [PlainOp] at hp
    simp only [OpFits] at hf
    unfold BitArray.writeRange
    by_cases hc : 0 ≤ weightExp scheme W s ∧ weightExp scheme W s ≤ weightExp scheme W e ∧
        weightExp scheme W e < W
    · rw [if_pos hc, if_pos hc]
      by_cases hw : weightExp scheme W s = 0 ∧ weightExp scheme W e = W - 1
      · rw [if_pos hw, hw.1, hw.2]
        unfold BitArray.write
        rw [if_pos (by omega)]
        simp
      · rw [if_neg hw]
        have he : weightExp scheme W s = weightExp scheme W e := by
          rcases hp with h | h | h
          · exact h
          · exact absurd h hw
          · exact absurd hc h
        rw [← he] at hf ⊢
        have hn : (weightExp scheme W s - weightExp scheme W s + 1).toNat = 1 := by omega
        rw [hn]
        unfold BitArray.oddWrite BitArray.write
        have hx : x = 0 ∨ x = 1 := by
          simp only [sub_self, Int.natAbs_zero, zero_add] at hf
          unfold Fits at hf; omega
        by_cases hk1 : (weightExp scheme W s).toNat ≤ k ∧ k < (weightExp scheme W s).toNat + 1
        · have : k - (weightExp scheme W s).toNat = 0 := by omega
          rw [if_pos hk1, this]
          have hb0 : bitOf x 0 = x := by rcases hx with rfl | rfl <;> decide
          rw [hb0]
          rcases hx with rfl | rfl
          · rw [if_neg]
            rintro (⟨-, h⟩ | ⟨-, h⟩)
            · exact h (by omega)
            · exact absurd h (by decide)
          · rw [if_pos (Or.inr ⟨hk1.1, rfl⟩)]
        · rw [if_neg hk1]
          have hx2 : (weightExp scheme W s).toNat ≤ k → bitOf x (k - (weightExp scheme W s).toNat) ≠ 1 := by
            intro hle
            obtain ⟨j, hj⟩ : ∃ j, k - (weightExp scheme W s).toNat = j + 1 :=
              ⟨k - (weightExp scheme W s).toNat - 1, by omega⟩
            rw [hj]
            have hfx : Fits 1 x := by rcases hx with rfl | rfl <;> decide
            intro h1
            rw [bitOf_eq, (fits_iff _ _).1 hfx (j + 1) (by omega)] at h1
            exact absurd h1 (by decide)
          rcases ha k with h0 | h1
          · rw [h0, if_neg]
            rintro (⟨h, -⟩ | ⟨h1, h2⟩)
            · exact absurd h (by decide)
            · exact hx2 h1 h2
          · rw [h1, if_pos]
            exact Or.inl ⟨rfl, by omega⟩
    · rw [if_neg hc, if_neg hc]
  · rfl

theorem bfRun_odd (ops : List BfOp) : ∀ (b : BitField) (a : BitArray), b.order = .lsbLeft →
    Fits b.width b.value → (∀ op ∈ ops, OpFits b.numbering.code b.width op) →
    (∀ k, k < b.width → a k = bitOf b.value k) →
    ∀ k, k < b.width → bitOf (bfRun b ops).value k =
      ops.foldl (BitArray.stepOdd b.numbering.code b.width) a k := by
  induction ops with
  | nil => intro b a _ _ _ ha k hk; exact (ha k hk).symm
  | cons op ops ih =>
    intro b a ho hb hops ha k hk
    obtain ⟨_, hw, hn, hord⟩ := C12_failure_atomic b op
    have hop := hops op (by simp)
    have h1 := ih (op.run b).1 (BitArray.stepOdd b.numbering.code b.width a op) (hord.trans ho)
      (by rw [hw]; exact fits_step b op hb hop)
      (by rw [hw, hn]; exact fun o ho => hops o (by simp [ho]))
      (fun j hj => by
        rw [hw] at hj
        rw [stepOdd_run b op ho hb hop j hj]
        exact stepOdd_congr _ _ _ _ _ _ (ha j hj))
      k (by rw [hw]; exact hk)
    rw [hw, hn] at h1
    exact h1

theorem init_lsbLeft {v : Int} {w : Nat} {num : Int} {b : BitField}
    (hinit : BitField.init v w num 1 = .ok b) :
    b.width = w ∧ b.value = v ∧ b.order = .lsbLeft ∧ v ≤ 2 ^ w - 1 := by
  unfold BitField.init at hinit
  by_cases c1 : w > MAX_WIDTH
  · rw [if_pos c1] at hinit; cases hinit
  · by_cases c2 : v > 2 ^ w - 1
    · rw [if_neg c1, if_pos c2] at hinit; cases hinit
    · rw [if_neg c1, if_neg c2] at hinit
      simp only [py_pure, py_bind_ok, orderOf] at hinit
      cases hn : numberingOf num with
      | error e => rw [hn] at hinit; cases hinit
      | ok n =>
        rw [hn] at hinit
        simp only [py_bind_ok] at hinit
        injection hinit with hinit
        subst hinit
        exact ⟨rfl, rfl, rfl, by omega⟩

theorem bfRun_config (ops : List BfOp) : ∀ (c : BitField), (bfRun c ops).width = c.width ∧
    (bfRun c ops).numbering = c.numbering := by
  induction ops with
  | nil => intro c; exact ⟨rfl, rfl⟩
  | cons op ops ih =>
    intro c
    obtain ⟨_, hw, hn, _⟩ := C12_failure_atomic c op
    have := ih (op.run c).1
    rw [hw, hn] at this
    exact this

theorem stepOdd_bits (scheme W : Nat) (a : BitArray) (ha : ∀ k, a k = 0 ∨ a k = 1) (op : BfOp) (k : Nat) :
    BitArray.stepOdd scheme W a op k = 0 ∨ BitArray.stepOdd scheme W a op k = 1 := by
  have hbit : ∀ (x : Int) (j : Nat), bitOf x j = 0 ∨ bitOf x j = 1 := by
    intro x j; rw [bitOf_eq]; split <;> simp
  have hrange : ∀ s e x, BitArray.writeRange a scheme W s e x k = 0 ∨
      BitArray.writeRange a scheme W s e x k = 1 := by
    intro s e x
    unfold BitArray.writeRange
    split
    · unfold BitArray.write
      split
      · exact hbit _ _
      · exact ha k
    · exact ha k
  unfold BitArray.stepOdd
  split
  · split
    · split
      · exact hbit _ _
      · unfold BitArray.oddWrite
        split <;> simp
    · exact ha k
  · cases op with
    | setitem key x =>
      cases key with
      | idx i => exact hrange i i x
      | slice s e =>
        cases s with
        | none => exact ha k
        | some s =>
          cases e with
          | none => exact ha k
          | some e => exact hrange s e x
    | setValue x => exact hbit x k
    | set i =>
      cases i with
      | none => exact Or.inr rfl
      | some i =>
        simp only [BitArray.step, BitArray.fill]
        split
        · exact Or.inr rfl
        · exact hrange i i 1
    | clear i =>
      cases i with
      | none => exact Or.inl rfl
      | some i =>
        simp only [BitArray.step, BitArray.fill]
        split
        · exact Or.inl rfl
        · exact hrange i i 0

theorem stepLeft_congr (scheme W : Nat) (a a' : BitArray) (op : BfOp) (k : Nat) (h : a k = a' k) :
    BitArray.stepLeft scheme W a op k = BitArray.stepLeft scheme W a' op k := by
  unfold BitArray.stepLeft
  split
  · rename_i s e x
    have h' := bitArray_step_congr scheme W a a' (.setitem (.slice (some e) (some s)) x) k h
    exact h'
  · exact bitArray_step_congr scheme W a a' _ k h

theorem foldl_plain (scheme W : Nat) (ops : List BfOp) : ∀ (a a' : BitArray),
    (∀ k, a k = 0 ∨ a k = 1) → (∀ k, k < W → a k = a' k) →
    (∀ op ∈ ops, OpFits scheme W op) → (∀ op ∈ ops, PlainOp scheme W op) → ∀ k, k < W →
    ops.foldl (BitArray.stepOdd scheme W) a k = ops.foldl (BitArray.stepLeft scheme W) a' k := by
  induction ops with
  | nil => intro a a' _ h _ _ k hk; exact h k hk
  | cons op ops ih =>
    intro a a' ha h hf hp k hk
    refine ih _ _ (stepOdd_bits scheme W a ha op) ?_ (fun o ho => hf o (by simp [ho]))
      (fun o ho => hp o (by simp [ho])) k hk
    intro j hj
    rw [stepOdd_plain scheme W a ha op (hp op (by simp)) (hf op (by simp)) j hj]
    exact stepLeft_congr _ _ _ _ _ _ (h j hj)

/-! ### C142 -/

/-- C142, the property as stated: after any history of operations whose values fit, on an LSB-left
field, reading an index gives the bit that the array of bits has at the weight of that index. -/
def C142_statement : Prop :=
  ∀ (v : Int) (w : Nat) (num : Int) (b : BitField) (ops : List BfOp),
    BitField.init v w num 1 = .ok b → 0 ≤ v → (∀ op ∈ ops, OpFits b.numbering.code w op) →
    ∀ i : Int, 0 ≤ weightExp b.numbering.code w i → weightExp b.numbering.code w i < w →
      (bfRun b ops).getitem (.idx i) =
        .ok (ops.foldl (BitArray.stepLeft b.numbering.code w) (fun k => bitOf v k)
          (weightExp b.numbering.code w i).toNat)

/-- C142 is false: writing zero to bits 3 to 5 of 255 leaves bit 3 set and clears bit 7. -/
theorem C142_refuted : ¬ C142_statement ∧
    bfRun ⟨8, 255, .lsb0, .lsbLeft⟩ [.setitem (.slice (some 3) (some 5)) 0] =
      ⟨8, 0b00011111, .lsb0, .lsbLeft⟩ := by
  refine ⟨?_, by decide⟩
  intro h
  have h1 := h 255 8 0 ⟨8, 255, .lsb0, .lsbLeft⟩ [.setitem (.slice (some 3) (some 5)) 0] rfl
    (by decide) (by intro op hop; simp only [List.mem_singleton] at hop; subst hop
                    simp only [OpFits]; decide) 3 (by decide) (by decide)
  revert h1; decide

/-- C142, what every history does: slices other than the whole field clear as many bits from the
highest one on, and then add the ones of the value. -/
theorem C142_exact_partial (v : Int) (w : Nat) (num : Int) (b : BitField) (ops : List BfOp)
    (hinit : BitField.init v w num 1 = .ok b) (hv : 0 ≤ v)
    (hops : ∀ op ∈ ops, OpFits b.numbering.code w op) (i : Int)
    (hi : 0 ≤ weightExp b.numbering.code w i ∧ weightExp b.numbering.code w i < w) :
    (bfRun b ops).getitem (.idx i) =
      .ok (ops.foldl (BitArray.stepOdd b.numbering.code w) (fun k => bitOf v k)
        (weightExp b.numbering.code w i).toNat) := by
  obtain ⟨h1, h2, h3, h4⟩ := init_lsbLeft hinit
  subst h1
  have hfit : Fits b.width b.value := by
    rw [h2]; exact ⟨hv, by omega⟩
  obtain ⟨hw', hn'⟩ := bfRun_config ops b
  have h5 := C01_bit_read (bfRun b ops) i
  rw [hw', hn', if_pos hi] at h5
  rw [h5]
  congr 1
  exact (bfRun_odd ops b _ h3 hfit hops (fun k _ => by rw [h2]) _ (by omega))

/-- C142, the histories for which the property holds: those without slices of more than one bit and
less than the field. -/
theorem C142_plain_partial (v : Int) (w : Nat) (num : Int) (b : BitField) (ops : List BfOp)
    (hinit : BitField.init v w num 1 = .ok b) (hv : 0 ≤ v)
    (hops : ∀ op ∈ ops, OpFits b.numbering.code w op)
    (hplain : ∀ op ∈ ops, PlainOp b.numbering.code w op) (i : Int)
    (hi : 0 ≤ weightExp b.numbering.code w i ∧ weightExp b.numbering.code w i < w) :
    (bfRun b ops).getitem (.idx i) =
      .ok (ops.foldl (BitArray.stepLeft b.numbering.code w) (fun k => bitOf v k)
        (weightExp b.numbering.code w i).toNat) := by
  rw [C142_exact_partial v w num b ops hinit hv hops i hi]
  congr 1
  exact foldl_plain _ w ops _ _ (fun k => by rw [bitOf_eq]; split <;> simp) (fun _ _ => rfl)
    hops hplain _ (by omega)

/-- Concrete case: a history with an odd slice write, a whole-field write in between, a bit write, a
rejected slice and a `clear`. -/
example : let ops : List BfOp := [.setitem (.slice (some 0) (some 7)) 0b10110111,
      .setitem (.slice (some 2) (some 4)) 0b101, .setitem (.idx 6) 1,
      .setitem (.slice (some 4) (some 2)) 0, .clear (some 1)]
    BitField.init 0 8 0 1 = .ok ⟨8, 0, .lsb0, .lsbLeft⟩ ∧
    (∀ op ∈ ops, OpFits 0 8 op) ∧
    bfRun ⟨8, 0, .lsb0, .lsbLeft⟩ ops = ⟨8, 0b11010101, .lsb0, .lsbLeft⟩ ∧
    (List.range 8).map (ops.foldl (BitArray.stepOdd 0 8) (fun _ => 0)) = [1, 0, 1, 0, 1, 0, 1, 1] := by
  refine ⟨rfl, ?_, by decide, by decide⟩
  intro op hop
  simp only [List.mem_cons, List.not_mem_nil, or_false] at hop
  rcases hop with rfl | rfl | rfl | rfl | rfl <;> simp only [OpFits] <;> decide

/-- Concrete case: a history of plain operations. -/
example : let ops : List BfOp := [.setitem (.slice (some 0) (some 7)) 0b10110111,
      .setitem (.slice (some 3) (some 3)) 1, .set (some 6), .setitem (.slice (some 4) (some 2)) 0]
    (∀ op ∈ ops, OpFits 0 8 op) ∧ (∀ op ∈ ops, PlainOp 0 8 op) ∧
    (List.range 8).map (ops.foldl (BitArray.stepLeft 0 8) (fun _ => 0)) = [1, 1, 1, 1, 1, 1, 1, 1] := by
  refine ⟨?_, ?_, by decide⟩
  · intro op hop
    simp only [List.mem_cons, List.not_mem_nil, or_false] at hop
    rcases hop with rfl | rfl | rfl | rfl <;> simp only [OpFits] <;> decide
  · intro op hop
    simp only [List.mem_cons, List.not_mem_nil, or_false] at hop
    rcases hop with rfl | rfl | rfl | rfl <;> simp only [PlainOp] <;> decide

/-! ### C143 -/

/-- C143, the property as stated, for LSB-left fields. -/
def C143_statement : Prop :=
  ∀ (b : BitField) (s e : Int) (lo n : Nat), b.order = .lsbLeft → 1 ≤ n → lo + n ≤ b.width →
    weightExp b.numbering.code b.width s = lo →
    weightExp b.numbering.code b.width e = lo + n - 1 →
    Fits b.width b.value →
    (b.isRangeSet (some s) (some e) = .ok true ↔ AllBits lo n b.value 1) ∧
    (b.isRangeClr (some s) (some e) = .ok true ↔ AllBits lo n b.value 0) ∧
    (∀ x, x = 0 ∨ x = 1 → (b.isRange (some s) (some e) x = .ok true ↔ AllBits lo n b.value x))

/-- C143 is false: with all bits of eight set, bits 0 to 5 are reported not set, and clear; with
bit 0 set, bits 0 and 1 are reported zero; with bits 1 and 2 set, bits 0 and 1 are reported set. -/
theorem C143_refuted : ¬ C143_statement ∧
    BitField.isRangeSet ⟨8, 255, .lsb0, .lsbLeft⟩ (some 0) (some 5) = .ok false ∧
    BitField.isRangeClr ⟨8, 255, .lsb0, .lsbLeft⟩ (some 0) (some 5) = .ok true ∧
    BitField.isRange ⟨8, 0b0001, .lsb0, .lsbLeft⟩ (some 0) (some 1) 0 = .ok true ∧
    BitField.isRange ⟨8, 0b0110, .lsb0, .lsbLeft⟩ (some 0) (some 1) 1 = .ok true := by
  refine ⟨?_, by decide, by decide, by decide, by decide⟩
  intro h
  have h1 := (h ⟨8, 255, .lsb0, .lsbLeft⟩ 0 5 0 6 rfl (by decide) (by decide) (by decide)
    (by decide) (by decide)).2.1.1 (by decide)
  have := h1 4 (by decide) (by decide)
  revert this; decide

theorem ones_shift (X : Int) (lo n : Nat) (hn : 1 ≤ n) (hlt : X < 2 ^ n)
    (h : X = (2 ^ n - 1) * 2 ^ lo) : lo = 0 := by
  by_contra hlo
  obtain ⟨l, rfl⟩ : ∃ l, lo = l + 1 := ⟨lo - 1, by omega⟩
  obtain ⟨m, rfl⟩ : ∃ m, n = m + 1 := ⟨n - 1, by omega⟩
  have h1 : (1:Int) ≤ 2 ^ l := by
    have : 1 ≤ (2:Nat) ^ l := Nat.one_le_two_pow
    exact_mod_cast this
  have h2 : (1:Int) ≤ 2 ^ m := by
    have : 1 ≤ (2:Nat) ^ m := Nat.one_le_two_pow
    exact_mod_cast this
  rw [h, pow_succ, pow_succ] at hlt
  have : (2 ^ m * 2 - 1) * 1 ≤ (2 ^ m * 2 - 1) * (2:Int) ^ l :=
    Int.mul_le_mul_of_nonneg_left h1 (by omega)
  rw [← mul_assoc] at hlt
  omega

/-- C143, what the methods really compute for a range of less than the field: they look at the `n`
bits from the highest one of the range on, and `isRangeSet` is False unless the range begins with
bit 0. -/
theorem C143_exact_partial (b : BitField) (s e : Int) (lo n : Nat)
    (ho : b.order = .lsbLeft) (hn : 1 ≤ n) (hw : lo + n ≤ b.width) (hne : n ≠ b.width)
    (hs : weightExp b.numbering.code b.width s = lo)
    (he : weightExp b.numbering.code b.width e = lo + n - 1) :
    (∃ r, b.isRange (some s) (some e) 0 = .ok r ∧
      (r = true ↔ AllBits (lo + n - 1) n b.value 0)) ∧
    (∃ r, b.isRangeSet (some s) (some e) = .ok r ∧
      (r = true ↔ lo = 0 ∧ AllBits (n - 1) n b.value 1) ∧
      b.isRangeClr (some s) (some e) = .ok (!r)) ∧
    (∀ x, x ≠ 0 → x ≠ 1 → b.isRange (some s) (some e) x = .error .valueError) := by
  have hspan : b.Span s e lo n := ⟨hn, hw, by rw [ho]; exact ⟨hs, he⟩⟩
  have hc := checkRange_ok (span_rangeOk hspan)
  have hg := C06_exact_read b s e lo n ho hn hw hne hs he
  unfold getitem at hg; simp only at hg
  have hm := bitmask_span hspan
  have hmp : b.maskPos lo n = lo + n - 1 := by
    unfold maskPos; rw [ho]; simp only; rw [if_neg hne]
  rw [hmp] at hm
  have hp : (0:Int) < 2 ^ (n - 1) := by positivity
  refine ⟨?_, ?_, ?_⟩
  · refine ⟨decide (b.value / 2 ^ (lo + n - 1) % 2 ^ n * 2 ^ (n - 1) = 0), ?_, ?_⟩
    · unfold isRange
      rw [hc, hg, hm]
      rfl
    · rw [allBits_iff _ _ _ _ (Or.inl rfl), zero_mul, decide_eq_true_eq]
      constructor
      · intro h
        rcases Int.mul_eq_zero.1 h with h | h
        · exact h
        · omega
      · intro h; rw [h, zero_mul]
  · have hset : b.isRangeSet (some s) (some e)
        = .ok (decide (b.value / 2 ^ (lo + n - 1) % 2 ^ n * 2 ^ (n - 1) =
            (2 ^ n - 1) * 2 ^ (lo + n - 1))) := by
      unfold isRangeSet isRange
      rw [hc, hg, hm]
      rfl
    refine ⟨_, hset, ?_, by unfold isRangeClr; rw [hset]; rfl⟩
    rw [allBits_iff _ _ _ _ (Or.inr rfl), one_mul, decide_eq_true_eq]
    have hsplit : ((2:Int) ^ n - 1) * 2 ^ (lo + n - 1) = (2 ^ n - 1) * 2 ^ lo * 2 ^ (n - 1) := by
      rw [mul_assoc, ← pow_add]
      congr 2; omega
    rw [hsplit]
    have hcancel : ∀ X Y : Int, X * 2 ^ (n - 1) = Y * 2 ^ (n - 1) ↔ X = Y := by
      intro X Y
      exact ⟨fun h => Int.eq_of_mul_eq_mul_right (by omega) h, fun h => by rw [h]⟩
    rw [hcancel]
    constructor
    · intro h
      have h0 := ones_shift _ lo n hn (Int.emod_lt_of_pos _ (by positivity)) h
      subst h0
      rw [pow_zero, mul_one] at h
      rw [zero_add] at h
      exact ⟨rfl, h⟩
    · rintro ⟨rfl, h⟩
      rw [pow_zero, mul_one, zero_add]
      exact h
  · intro x h0 h1
    unfold isRange
    rw [hc]
    simp [h0, h1]

/-- C143, the whole field: `isRange` and `isRangeSet` are right. -/
theorem C143_whole_partial (b : BitField) (s e : Int) (ho : b.order = .lsbLeft) (hn : 1 ≤ b.width)
    (hs : weightExp b.numbering.code b.width s = 0)
    (he : weightExp b.numbering.code b.width e = b.width - 1) :
    (∃ r, b.isRange (some s) (some e) 0 = .ok r ∧ (r = true ↔ AllBits 0 b.width b.value 0)) ∧
    (∃ r, b.isRangeSet (some s) (some e) = .ok r ∧ (r = true ↔ AllBits 0 b.width b.value 1) ∧
      b.isRangeClr (some s) (some e) = .ok (!r)) := by
  have hspan : b.Span s e 0 b.width := ⟨hn, by omega, by rw [ho]; exact ⟨hs, by
    have : b.wt e = b.width - 1 := he
    omega⟩⟩
  have hc := checkRange_ok (span_rangeOk hspan)
  have hmp : b.maskPos 0 b.width = 0 := by
    unfold maskPos; rw [ho]; simp
  have hg := getSlice_span hspan
  have hm := bitmask_span hspan
  rw [hmp] at hm hg
  rw [land_mask_div] at hg
  refine ⟨?_, ?_⟩
  · refine ⟨decide (b.value / 2 ^ 0 % 2 ^ b.width = 0), ?_, ?_⟩
    · unfold isRange
      rw [hc, hg, hm]
      rfl
    · rw [allBits_iff _ _ _ _ (Or.inl rfl), zero_mul]; simp
  · have hset : b.isRangeSet (some s) (some e)
        = .ok (decide (b.value / 2 ^ 0 % 2 ^ b.width = (2 ^ b.width - 1) * 2 ^ 0)) := by
      unfold isRangeSet isRange
      rw [hc, hg, hm]
      rfl
    refine ⟨_, hset, ?_, by unfold isRangeClr; rw [hset]; rfl⟩
    rw [allBits_iff _ _ _ _ (Or.inr rfl), one_mul, decide_eq_true_eq, pow_zero, mul_one]

/-- Concrete case: bits 1 to 3 of a field of eight, in which bits 3 to 5 are zero. -/
example : weightExp 0 8 1 = 1 ∧ weightExp 0 8 3 = 1 + 3 - 1 ∧
    AllBits (1 + 3 - 1) 3 0b11000110 0 ∧
    BitField.isRange ⟨8, 0b11000110, .lsb0, .lsbLeft⟩ (some 1) (some 3) 0 = .ok true ∧
    BitField.isRangeSet ⟨8, 0b00011100, .lsb0, .lsbLeft⟩ (some 0) (some 2) = .ok true := by
  refine ⟨by decide, by decide, ?_, by decide, by decide⟩
  rw [allBits_iff _ _ _ _ (Or.inl rfl)]; decide

/-- Concrete case: the whole of a field of four. -/
example : weightExp 1 4 1 = 0 ∧ weightExp 1 4 4 = 4 - 1 ∧
    BitField.isRangeSet ⟨4, 0b1111, .lsb1, .lsbLeft⟩ (some 1) (some 4) = .ok true ∧
    BitField.isRange ⟨4, 0b0000, .lsb1, .lsbLeft⟩ (some 1) (some 4) 0 = .ok true := by decide

end H800
