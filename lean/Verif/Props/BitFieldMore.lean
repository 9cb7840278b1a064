import Verif.Model.Iter
import Verif.Props.BitField
import Verif.Props.Registers
import Verif.Spec.BitArray

/-!
Properties C99-C101: iteration over bit-fields, registers and memory modules; a bit-field as the sum
and as the array of its bits.
-/

namespace H800

open Spec BitField

/-- Items at `i, ..., i + n - 1`, then an exception other than IndexError. -/
theorem seqIter_run {α : Type} (get : Int → Py α) (e : PyErr) (he : e ≠ .indexError) (xs : List α) :
    ∀ (i : Int), (∀ (j : Nat) (x : α), xs[j]? = some x → get (i + j) = .ok x) →
      get (i + xs.length) = .error e →
      ∀ fuel, xs.length < fuel → seqIter get fuel i = some (xs, some e) := by
  induction xs with
  | nil =>
    intro i _ hend fuel hf
    obtain ⟨f, rfl⟩ : ∃ f, fuel = f + 1 := ⟨fuel - 1, by simp at hf; omega⟩
    simp only [List.length_nil, Nat.cast_zero, Int.add_zero] at hend
    simp only [seqIter, hend]
  | cons x xs ih =>
    intro i hget hend fuel hf
    obtain ⟨f, rfl⟩ : ∃ f, fuel = f + 1 := ⟨fuel - 1, by simp at hf; omega⟩
    have h0 := hget 0 x (by simp)
    simp only [Nat.cast_zero, Int.add_zero] at h0
    have h1 := ih (i + 1)
      (fun j y hj => by
        have := hget (j + 1) y (by simpa using hj)
        rw [← this]; congr 1; push_cast; ring)
      (by rw [← hend]; congr 1; simp only [List.length_cons]; push_cast; ring)
      f (by simp at hf; omega)
    simp only [seqIter, h0, h1]

/-- C99, the property as stated: a `for` loop over a bit-field, a register or a memory module
delivers the bits (by ascending index) or the banks, and ends. -/
def C99_statement : Prop :=
  (∀ (b : BitField), ∃ fuel xs, b.iter fuel = some (xs, none) ∧ xs.length = b.width) ∧
  (∀ (r : Register), ∃ fuel xs, r.iter fuel = some (xs, none) ∧ xs.length = r.width) ∧
  (∀ (m : MemoryModule), ∃ fuel, m.iter fuel = some (m.banks, none))

/-- Zero-based numberings: bits `0, ..., width - 1` are delivered, then ValueError is raised. -/
theorem C99_zero_based_partial (b : BitField) (hn : b.numbering.code = 0 ∨ b.numbering.code = 2)
    (fuel : Nat) (hf : b.width < fuel) :
    b.iter fuel = some ((List.range b.width).map fun (i : Nat) =>
      bitOf b.value (weightExp b.numbering.code b.width i).toNat, some .valueError) := by
  unfold BitField.iter
  have hwt : ∀ i : Int, (0 ≤ b.wt i ∧ b.wt i < b.width) ↔ 0 ≤ i ∧ i < b.width := by
    intro i
    unfold wt
    rcases hn with hn | hn <;> rw [hn]
    · rfl
    · simp only [weightExp]; omega
  apply seqIter_run
  · decide
  · intro j x hj
    simp only [List.getElem?_map, Option.map_eq_some_iff] at hj
    obtain ⟨i, hi, rfl⟩ := hj
    obtain ⟨hlt, hji⟩ := List.getElem?_eq_some_iff.1 hi
    simp only [List.length_range] at hlt
    simp only [List.getElem_range] at hji
    subst hji
    simp only [getitem, Int.zero_add]
    rw [getIndex_eq, if_pos ((hwt j).2 (by omega))]
    rfl
  · simp only [getitem, List.length_map, List.length_range]
    rw [getIndex_eq, if_neg (fun h => by have := (hwt _).1 h; omega)]
  · simpa using hf

/-- One-based numberings: the very first round raises ValueError. -/
theorem C99_one_based_partial (b : BitField) (hn : b.numbering.code = 1 ∨ b.numbering.code = 3)
    (fuel : Nat) (hf : 0 < fuel) : b.iter fuel = some ([], some .valueError) := by
  unfold BitField.iter
  apply seqIter_run
  · decide
  · intro j x hj; simp at hj
  · simp only [getitem, List.length_nil]
    rw [getIndex_eq, if_neg]
    unfold wt
    rcases hn with hn | hn <;> rw [hn] <;> simp only [weightExp] <;> omega
  · simpa using hf

/-- Registers number their bits from 1, so the loop fails at once, whatever was done to the register
before. -/
theorem C99_register_partial (r : Register) (h : RegisterReach r) (fuel : Nat) (hf : 0 < fuel) :
    r.iter fuel = some ([], some .valueError) := by
  have hd := (registerReach_shape h).2
  exact C99_one_based_partial r.data (by rw [hd]; exact Or.inr rfl) fuel hf

/-- The banks of a memory module are all delivered, in order; then KeyError is raised. -/
theorem C99_module_partial (m : MemoryModule) (fuel : Nat) (hf : m.banks.length < fuel) :
    m.iter fuel = some (m.banks, some .keyError) := by
  unfold MemoryModule.iter
  apply seqIter_run
  · decide
  · intro j x hj
    unfold MemoryModule.bank
    rw [if_neg (by omega)]
    have : (0 + (j : Int)).toNat = j := by omega
    rw [this, hj]
  · unfold MemoryModule.bank
    rw [if_neg (by omega)]
    have : (0 + (m.banks.length : Int)).toNat = m.banks.length := by omega
    rw [this, List.getElem?_eq_none (le_refl _)]
  · exact hf

/-- `iter` is deterministic: more fuel does not change a finished loop. -/
theorem seqIter_mono {α : Type} (get : Int → Py α) (r : List α × Option PyErr) :
    ∀ (fuel : Nat) (i : Int), seqIter get fuel i = some r →
      ∀ k, seqIter get (fuel + k) i = some r := by
  intro fuel
  induction fuel generalizing r with
  | zero => intro i h; cases h
  | succ f ih =>
    intro i h k
    rw [Nat.succ_add]
    simp only [seqIter] at h ⊢
    cases hg : get i with
    | error e => rw [hg] at h; rw [← h]; cases e <;> rfl
    | ok x =>
      rw [hg] at h
      simp only at h ⊢
      cases hs : seqIter get f (i + 1) with
      | none => rw [hs] at h; cases h
      | some q =>
        rw [hs] at h
        rw [ih q (i + 1) hs k]
        exact h

/-- C99 is false of the code in every case: no bit-field, register or module can be iterated over
without an exception. -/
theorem C99_refuted : ¬ C99_statement ∧
    (∀ (b : BitField) (fuel : Nat) (xs : List Int), b.iter fuel ≠ some (xs, none)) ∧
    (∀ (m : MemoryModule) (fuel : Nat) (xs : List MemoryBank), m.iter fuel ≠ some (xs, none)) := by
  have hb : ∀ (b : BitField) (fuel : Nat) (xs : List Int), b.iter fuel ≠ some (xs, none) := by
    intro b fuel xs h
    have h1 := seqIter_mono _ _ fuel 0 h (b.width + 1)
    change b.iter (fuel + (b.width + 1)) = _ at h1
    have hc : (b.numbering.code = 0 ∨ b.numbering.code = 2) ∨
        (b.numbering.code = 1 ∨ b.numbering.code = 3) := by
      cases b.numbering <;> simp [Numbering.code]
    rcases hc with hc | hc
    · rw [C99_zero_based_partial b hc _ (by omega)] at h1
      injection h1 with h1; injection h1 with _ h1; cases h1
    · rw [C99_one_based_partial b hc _ (by omega)] at h1
      injection h1 with h1; injection h1 with _ h1; cases h1
  have hm : ∀ (m : MemoryModule) (fuel : Nat) (xs : List MemoryBank),
      m.iter fuel ≠ some (xs, none) := by
    intro m fuel xs h
    have h1 := seqIter_mono _ _ fuel 0 h (m.banks.length + 1)
    change m.iter (fuel + (m.banks.length + 1)) = _ at h1
    rw [C99_module_partial m _ (by omega)] at h1
    injection h1 with h1; injection h1 with _ h1; cases h1
  refine ⟨fun h => ?_, hb, hm⟩
  obtain ⟨fuel, xs, h1, _⟩ := h.1 ⟨8, 0, .lsb0, .msbLeft⟩
  exact hb _ _ _ h1

/-- Concrete cases. -/
example : BitField.iter ⟨4, 0b1010, .msb0, .msbLeft⟩ 5 = some ([1, 0, 1, 0], some .valueError) ∧
    BitField.iter ⟨4, 0b1010, .msb1, .msbLeft⟩ 5 = some ([], some .valueError) := by decide

/-! ### C100 -/

theorem sum_map_two (f : Nat → Int) (l : List Nat) :
    2 * (l.map f).sum = (l.map fun k => 2 * f k).sum := by
  induction l with
  | nil => rfl
  | cons a l ih => simp only [List.map_cons, List.sum_cons, mul_add, ih]

theorem bits_sum (W : Nat) : ∀ v : Int, Fits W v →
    ((List.range W).map fun k => bitOf v k * 2 ^ k).sum = v := by
  induction W with
  | zero => intro v hv; unfold Fits at hv; simp at hv ⊢; omega
  | succ n ih =>
    intro v hv
    rw [List.range_succ_eq_map, List.map_cons, List.map_map, List.sum_cons]
    have h2 : Fits n (v / 2) := by
      unfold Fits at hv ⊢
      rw [pow_succ] at hv
      omega
    have h3 := ih (v / 2) h2
    have h4 : (List.map ((fun k => bitOf v k * 2 ^ k) ∘ Nat.succ) (List.range n)).sum
        = 2 * (v / 2) := by
      conv_rhs => rw [← h3]
      rw [sum_map_two]
      congr 1
      apply List.map_congr_left
      intro k _
      simp only [Function.comp, bitOf, Nat.succ_eq_add_one, pow_succ]
      rw [mul_comm ((2 : Int) ^ k) 2, ← Int.ediv_ediv_of_nonneg (by decide : (0:Int) ≤ 2)]
      ring
    rw [h4]
    simp only [bitOf, pow_zero, mul_one]
    omega

theorem sum_reflect (W : Nat) (f : Nat → Int) :
    ((List.range W).map fun r => f (W - 1 - r)).sum = ((List.range W).map f).sum := by
  have : ((List.range W).map fun r => f (W - 1 - r)) = ((List.range W).map f).reverse := by
    apply List.ext_getElem
    · simp
    · intro i h1 h2
      simp only [List.length_map, List.length_range] at h1
      simp [List.getElem_reverse]
  rw [this, List.sum_reverse]

/-- C100: the value is the sum of the bits read, each times the weight of its index. -/
theorem C100_sum_of_bits (b : BitField) (hb : Fits b.width b.value) (bit : Int → Int)
    (h : ∀ i ∈ b.indices, b.getitem (.idx i) = .ok (bit i)) :
    b.value = (b.indices.map fun i =>
      bit i * 2 ^ (weightExp b.numbering.code b.width i).toNat).sum := by
  have hbit : ∀ i ∈ b.indices, bit i = bitOf b.value (b.wt i).toNat := by
    intro i hi
    have h1 := h i hi
    simp only [getitem] at h1
    rw [getIndex_eq, if_pos ((mem_indices b i).1 hi)] at h1
    injection h1 with h1; exact h1.symm
  have e1 : (b.indices.map fun i => bit i * 2 ^ (weightExp b.numbering.code b.width i).toNat)
      = b.indices.map fun i => bitOf b.value (b.wt i).toNat * 2 ^ (b.wt i).toNat := by
    apply List.map_congr_left
    intro i hi
    rw [hbit i hi]; rfl
  rw [e1]
  unfold indices
  rw [List.map_map]
  cases ho : b.order with
  | lsbLeft =>
    rw [← bits_sum b.width b.value hb]
    rw [bits_sum b.width b.value hb]
    conv_lhs => rw [← bits_sum b.width b.value hb]
    congr 1
    apply List.map_congr_left
    intro r _
    simp only [Function.comp, wt_vindex, ho, Int.toNat_natCast]
  | msbLeft =>
    conv_lhs => rw [← bits_sum b.width b.value hb, ← sum_reflect]
    congr 1
    apply List.map_congr_left
    intro r _
    have : ((b.width : Int) - 1 - r).toNat = b.width - 1 - r := by omega
    simp only [Function.comp, wt_vindex, ho, this]

/-- C100, determination: two fields of one width, under any numberings and orders, that agree on
bits of equal weight have equal values. -/
theorem C100_determined (b b' : BitField) (hw : b.width = b'.width)
    (hb : Fits b.width b.value) (hb' : Fits b'.width b'.value)
    (h : ∀ i j v, weightExp b.numbering.code b.width i = weightExp b'.numbering.code b'.width j →
      b.getitem (.idx i) = .ok v → b'.getitem (.idx j) = .ok v) : b.value = b'.value := by
  rw [← bits_sum b.width b.value hb, ← bits_sum b'.width b'.value hb', ← hw]
  congr 1
  apply List.map_congr_left
  intro k hk
  have hk : k < b.width := List.mem_range.1 hk
  have hex : ∀ c : BitField, ∃ i, c.wt i = k := by
    intro c
    unfold wt
    cases c.numbering <;> simp only [Numbering.code, weightExp]
    · exact ⟨k, rfl⟩
    · exact ⟨k + 1, by omega⟩
    · exact ⟨c.width - 1 - k, by omega⟩
    · exact ⟨c.width - k, by omega⟩
  obtain ⟨i, hi⟩ := hex b
  obtain ⟨j, hj⟩ := hex b'
  have h1 := h i j (bitOf b.value k) (hi.trans hj.symm) (by
    simp only [getitem]
    rw [getIndex_eq, if_pos (by rw [hi]; omega), hi, Int.toNat_natCast])
  simp only [getitem] at h1
  rw [getIndex_eq, if_pos (by rw [hj]; omega), hj, Int.toNat_natCast] at h1
  injection h1 with h1
  rw [h1]

/-- Concrete case: 0b1011 as an MSB_1 field, 8 + 2 + 1. -/
example : let b : BitField := ⟨4, 0b1011, .msb1, .msbLeft⟩
    b.indices = [1, 2, 3, 4] ∧ b.getitem (.idx 2) = .ok 0 ∧
    (11 : Int) = [1 * 2 ^ 3, 0 * 2 ^ 2, 1 * 2 ^ 1, 1 * 2 ^ 0].sum := by decide

/-! ### C101 -/

theorem setitem_bit_range (b : BitField) (s e x : Int) (ho : b.order = .msbLeft)
    (hb : Fits b.width b.value)
    (hx : Fits ((b.wt s - b.wt e).natAbs + 1) x) (k : Nat) :
    bitOf (b.setitem (.slice (some s) (some e)) x).1.value k =
      BitArray.writeRange (fun k => bitOf b.value k) b.numbering.code b.width s e x k := by
  unfold BitArray.writeRange
  by_cases hr : b.RangeOk s e
  · obtain ⟨lo, n, hspan⟩ := (rangeOk_iff b s e).1 hr
    have h3 := hspan
    obtain ⟨h1, h2, h3⟩ := h3
    rw [ho] at h3
    obtain ⟨he, hs⟩ := h3
    have hn : (b.wt s - b.wt e).natAbs + 1 = n := by omega
    rw [hn] at hx
    obtain ⟨b', hb1, hb2, hb3, _⟩ := C05_slice_write b s e x lo n ho h1 h2 hs he hb hx
    have hcfg : b' = { b with value := b'.value } := by
      have := setitem_shape b (.slice (some s) (some e)) x
      rw [hb1] at this
      exact this
    rw [hb1]
    have hs' : weightExp b.numbering.code b.width s = lo + n - 1 := hs
    have he' : weightExp b.numbering.code b.width e = lo := he
    rw [hs', he', if_pos (by omega)]
    unfold BitArray.write
    have hlo : (lo : Int).toNat = lo := by omega
    have hnn : ((lo : Int) + n - 1 - lo + 1).toNat = n := by omega
    rw [hlo, hnn]
    by_cases hin : lo ≤ k ∧ k < lo + n
    · rw [if_pos hin]
      have h4 := C04_slice_read b' s e lo n (by rw [hcfg]; exact ho) h1 (by rw [hcfg]; exact h2)
        (by rw [hcfg]; exact hs) (by rw [hcfg]; exact he)
      rw [hb2] at h4
      injection h4 with h4
      rw [h4]
      rw [bitOf_eq_iff, testBit_mod, testBit_div]
      have : k - lo + lo = k := by omega
      rw [this]
      have : k - lo < n := by omega
      simp [this]
    · rw [if_neg hin]
      exact hb3 k hin
  · have hng : ¬ (0 ≤ weightExp b.numbering.code b.width e ∧
        weightExp b.numbering.code b.width e ≤ weightExp b.numbering.code b.width s ∧
        weightExp b.numbering.code b.width s < b.width) := by
      intro hc
      change 0 ≤ b.wt e ∧ b.wt e ≤ b.wt s ∧ b.wt s < b.width at hc
      apply hr
      rw [rangeOk_iff]
      refine ⟨(b.wt e).toNat, (b.wt s - b.wt e + 1).toNat, by omega, by omega, ?_⟩
      rw [ho]
      constructor <;> omega
    rw [if_neg hng]
    have hc := checkRange_some b s e
    rw [if_neg hr] at hc
    have : b.newSlice (some s) (some e) x = .error .valueError := by
      unfold newSlice; simp only [hc, py_bind_error]
    rw [setitem_slice_error this]

theorem setitem_bit_index (b : BitField) (i x : Int) (hb : Fits b.width b.value) (hx : Fits 1 x) (k : Nat) :
    bitOf (b.setitem (.idx i) x).1.value k =
      BitArray.writeRange (fun k => bitOf b.value k) b.numbering.code b.width i i x k := by
  have hx' : x = 0 ∨ x = 1 := by unfold Fits at hx; omega
  unfold BitArray.writeRange
  by_cases hv : 0 ≤ b.wt i ∧ b.wt i < b.width
  · obtain ⟨p, hp⟩ := Int.eq_ofNat_of_zero_le hv.1
    obtain ⟨b', h1, h2, h3⟩ := setitem_bit b i x p hp (by omega) hb hx'
    have hp' : weightExp b.numbering.code b.width i = p := hp
    rw [h1, hp', if_pos (by omega)]
    unfold BitArray.write
    have hlo : (p : Int).toNat = p := by omega
    have hnn : ((p : Int) - p + 1).toNat = 1 := by omega
    rw [hlo, hnn]
    by_cases hk : p ≤ k ∧ k < p + 1
    · have : k = p := by omega
      subst this
      rw [if_pos hk, h2, Nat.sub_self]
      rcases hx' with rfl | rfl <;> decide
    · rw [if_neg hk]; exact h3 k hk
  · have hng : ¬ (0 ≤ weightExp b.numbering.code b.width i ∧
        weightExp b.numbering.code b.width i ≤ weightExp b.numbering.code b.width i ∧
        weightExp b.numbering.code b.width i < b.width) := fun h => hv ⟨h.1, h.2.2⟩
    rw [if_neg hng, C03_bit_write_invalid b i x hv]

theorem bitOf_maxval (b : BitField) (k : Nat) (hk : k < b.width) : bitOf b.maxval k = 1 := by
  have h := (allBits_iff 0 b.width b.maxval 1 (Or.inr rfl)).2 (by
    have := fits_maxval b
    unfold maxval
    simp only [pow_zero, Int.ediv_one, one_mul]
    exact Int.emod_eq_of_lt this.1 this.2)
  exact h k (by omega) (by omega)

theorem bfRun_bit_step (b : BitField) (op : BfOp) (ho : b.order = .msbLeft) (hb : Fits b.width b.value)
    (h : OpFits b.numbering.code b.width op) (k : Nat) (hk : k < b.width) :
    bitOf (op.run b).1.value k =
      BitArray.step b.numbering.code b.width (fun k => bitOf b.value k) op k := by
  cases op with
  | setitem key x =>
    cases key with
    | idx i => exact setitem_bit_index b i x hb h k
    | slice s e =>
      cases s with
      | none => rfl
      | some s =>
        cases e with
        | none =>
          have : ∃ err, b.newSlice (some s) none x = .error err := by
            unfold newSlice checkRange
            rw [checkIndex_some]
            split
            · exact ⟨.typeError, rfl⟩
            · exact ⟨.valueError, rfl⟩
          obtain ⟨err, he⟩ := this
          simp only [BfOp.run, setitem_slice_error he, BitArray.step]
        | some e => exact setitem_bit_range b s e x ho hb h k
  | setValue x =>
    have h' : Fits b.width x := h
    have h1 := C08_acceptance_partial.2.1 b x
    rw [if_pos (le_of_lt h'.2)] at h1
    simp only [BfOp.run, BitArray.step]
    unfold BitField.setValue at h1 ⊢
    cases hc : b.checkValue x none with
    | ok u => rfl
    | error e => rw [hc] at h1; cases h1
  | set i =>
    cases i with
    | none => exact bitOf_maxval b k hk
    | some i =>
      simp only [BfOp.run, BitField.set, BitArray.step, BitArray.fill]
      by_cases h0 : i = 0
      · rw [if_pos h0, if_pos h0]; exact bitOf_maxval b k hk
      · rw [if_neg h0, if_neg h0, ← setitem_bit_index b i 1 hb (by decide) k, checkIndex_some]
        by_cases hv : 0 ≤ b.wt i ∧ b.wt i < b.width
        · rw [if_pos hv]
        · rw [if_neg hv, C03_bit_write_invalid b i 1 hv]
  | clear i =>
    cases i with
    | none => simp [BfOp.run, BitField.clear, BitArray.step, BitArray.fill, bitOf]
    | some i =>
      simp only [BfOp.run, BitField.clear, BitArray.step, BitArray.fill]
      by_cases h0 : i = 0
      · rw [if_pos h0, if_pos h0]; simp [bitOf]
      · rw [if_neg h0, if_neg h0, ← setitem_bit_index b i 0 hb (by decide) k, checkIndex_some]
        by_cases hv : 0 ≤ b.wt i ∧ b.wt i < b.width
        · rw [if_pos hv]
        · rw [if_neg hv, C03_bit_write_invalid b i 0 hv]

theorem bitArray_step_congr (scheme W : Nat) (a a' : BitArray) (op : BfOp) (k : Nat) (h : a k = a' k) :
    BitArray.step scheme W a op k = BitArray.step scheme W a' op k := by
  have hw : ∀ s e x, a.writeRange scheme W s e x k = a'.writeRange scheme W s e x k := by
    intro s e x
    unfold BitArray.writeRange BitArray.write
    split
    · simp only [h]
    · exact h
  have hf : ∀ x i, a.fill scheme W x i k = a'.fill scheme W x i k := by
    intro x i
    cases i with
    | none => rfl
    | some i =>
      simp only [BitArray.fill]
      split
      · rfl
      · exact hw i i x
  cases op with
  | setitem key x =>
    cases key with
    | idx i => exact hw i i x
    | slice s e =>
      cases s with
      | none => exact h
      | some s => cases e with
        | none => exact h
        | some e => exact hw s e x
  | setValue x => rfl
  | set i => exact hf 1 i
  | clear i => exact hf 0 i

theorem bfRun_refines (ops : List BfOp) : ∀ (b : BitField) (a : BitArray), b.order = .msbLeft →
    Fits b.width b.value → (∀ op ∈ ops, OpFits b.numbering.code b.width op) →
    (∀ k, k < b.width → a k = bitOf b.value k) →
    ∀ k, k < b.width → bitOf (bfRun b ops).value k =
      ops.foldl (BitArray.step b.numbering.code b.width) a k := by
  induction ops with
  | nil => intro b a _ _ _ ha k hk; exact (ha k hk).symm
  | cons op ops ih =>
    intro b a ho hb hops ha k hk
    obtain ⟨_, hw, hn, hord⟩ := C12_failure_atomic b op
    have hop := hops op (by simp)
    have h1 := ih (op.run b).1 (BitArray.step b.numbering.code b.width a op) (hord.trans ho)
      (by rw [hw]; exact fits_step b op hb hop)
      (by rw [hw, hn]; exact fun o ho => hops o (by simp [ho]))
      (fun j hj => by
        rw [hw] at hj
        rw [bfRun_bit_step b op ho hb hop j hj]
        exact bitArray_step_congr _ _ _ _ _ _ (ha j hj))
      k (by rw [hw]; exact hk)
    rw [hw, hn] at h1
    exact h1

/-- C101: after any history of operations whose values fit, on an MSB-left field, reading an index
gives the bit that the array of bits has at the weight of that index. -/
theorem C101_bit_array (v : Int) (w : Nat) (num : Int) (b : BitField) (ops : List BfOp)
    (hinit : BitField.init v w num 0 = .ok b) (hv : 0 ≤ v)
    (hops : ∀ op ∈ ops, OpFits b.numbering.code w op) (i : Int)
    (hi : 0 ≤ weightExp b.numbering.code w i ∧ weightExp b.numbering.code w i < w) :
    (bfRun b ops).getitem (.idx i) =
      .ok (BitArray.run b.numbering.code w v ops (weightExp b.numbering.code w i).toNat) := by
  obtain ⟨h1, h2, h3, h4⟩ : b.width = w ∧ b.value = v ∧ b.order = .msbLeft ∧ v ≤ 2 ^ w - 1 := by
    unfold BitField.init at hinit
    by_cases c1 : w > MAX_WIDTH
    · rw [if_pos c1] at hinit; cases hinit
    · by_cases c2 : v > 2 ^ w - 1
      · rw [if_neg c1, if_pos c2] at hinit; cases hinit
      · rw [if_neg c1, if_neg c2] at hinit
        simp only [py_pure, py_bind_ok, orderOf] at hinit
        cases hn : numberingOf num with
        | error e => rw [hn] at hinit; cases hinit
        | ok n =>
          rw [hn] at hinit
          simp only [py_bind_ok] at hinit
          injection hinit with hinit
          subst hinit
          exact ⟨rfl, rfl, rfl, by omega⟩
  subst h1
  have hfit : Fits b.width b.value := by
    rw [h2]; exact ⟨hv, by omega⟩
  have hcfg : ∀ (ops : List BfOp) (c : BitField), (bfRun c ops).width = c.width ∧
      (bfRun c ops).numbering = c.numbering := by
    intro ops
    induction ops with
    | nil => intro c; exact ⟨rfl, rfl⟩
    | cons op ops ih =>
      intro c
      obtain ⟨_, hw, hn, _⟩ := C12_failure_atomic c op
      have := ih (op.run c).1
      rw [hw, hn] at this
      exact this
  obtain ⟨hw', hn'⟩ := hcfg ops b
  have h5 := C01_bit_read (bfRun b ops) i
  rw [hw', hn', if_pos hi] at h5
  rw [h5]
  congr 1
  exact (bfRun_refines ops b _ h3 hfit hops (fun k _ => by rw [h2]) _ (by omega))

/-- Concrete case: a history with a slice write, an invalid write, a bit write and a `clear`. -/
example : let ops : List BfOp := [.setitem (.slice (some 2) (some 6)) 0b11011,
      .setitem (.idx 13) 1, .clear (some 1), .setitem (.idx 12) 1]
    (∀ op ∈ ops, OpFits 3 12 op) ∧
    bfRun ⟨12, 0b101100111000, .msb1, .msbLeft⟩ ops = ⟨12, 0b011011111001, .msb1, .msbLeft⟩ ∧
    (List.range 12).map (BitArray.run 3 12 0b101100111000 ops) = [1, 0, 0, 1, 1, 1, 1, 1, 0, 1, 1, 0] := by
  refine ⟨?_, by decide, by decide⟩
  intro op hop
  simp only [List.mem_cons, List.not_mem_nil, or_false] at hop
  rcases hop with rfl | rfl | rfl | rfl <;> simp only [OpFits] <;> decide

end H800
