import Verif.Lemmas.BitField
import Verif.Lemmas.Numeral

/-!
Properties C01-C14: the bit-field class.

`weightExp scheme W i` (Spec) is the documented exponent of the weight named by index `i`.
All theorems are for every width, every (also out-of-range) value unless `Fits` is assumed, all
four numberings and both orders.
-/

namespace H800

open Spec BitField

/-- C01: `b[i]` is the bit whose weight the numbering documents, in either order; other indices
raise ValueError. -/
theorem C01_bit_read (b : BitField) (i : Int) :
    b.getitem (.idx i) =
      if 0 ≤ weightExp b.numbering.code b.width i ∧ weightExp b.numbering.code b.width i < b.width
      then .ok (bitOf b.value (weightExp b.numbering.code b.width i).toNat)
      else .error .valueError := getIndex_eq b i

/-- Concrete case: bit 1 of the MSB_1 field 0b10000000 is 1, bit 9 does not exist. -/
example : let b : BitField := ⟨8, 128, .msb1, .msbLeft⟩
    b.getitem (.idx 1) = .ok 1 ∧ b.getitem (.idx 2) = .ok 0 ∧
    b.getitem (.idx 9) = .error .valueError := by decide

/-- C02: the indices. -/
theorem C02_indices (b : BitField) :
    b.indices.length = b.width ∧ b.indices.Nodup ∧
    (∀ i, i ∈ b.indices ↔ ∃ v, b.getitem (.idx i) = .ok v) ∧
    (1 ≤ b.width →
      (∃ l, b.lsb = .ok l ∧ weightExp b.numbering.code b.width l = 0) ∧
      (∃ m, b.msb = .ok m ∧ weightExp b.numbering.code b.width m = b.width - 1)) := by
  refine ⟨by simp [indices], ?_, ?_, ?_⟩
  · unfold indices
    apply List.Nodup.map _ List.nodup_range
    intro r r' h
    have : b.wt (b.vindex r) = b.wt (b.vindex r') := by
      simp only at h; rw [h]
    rw [wt_vindex, wt_vindex] at this
    cases ho : b.order <;> simp only [ho] at this <;> omega
  · intro i
    rw [mem_indices]
    unfold getitem
    simp only [getIndex_eq]
    split
    · rename_i h; exact ⟨fun _ => ⟨_, rfl⟩, fun _ => h⟩
    · rename_i h; exact ⟨fun h' => absurd h' h, fun ⟨v, hv⟩ => by cases hv⟩
  · intro hW
    have hh : b.indices.head? = some (b.vindex 0) := by
      unfold indices
      rw [List.head?_map, List.head?_range, if_neg (by omega)]; rfl
    have hl : b.indices.getLast? = some (b.vindex (b.width - 1 : Nat)) := by
      unfold indices
      rw [List.getLast?_map, List.getLast?_range, if_neg (by omega)]; rfl
    have h0 := wt_vindex b 0
    have h1 := wt_vindex b (b.width - 1 : Nat)
    change (∃ l, b.lsb = .ok l ∧ b.wt l = 0) ∧ (∃ m, b.msb = .ok m ∧ b.wt m = b.width - 1)
    unfold lsb msb first last
    rw [hh, hl]
    cases ho : b.order <;> simp only [ho] at h0 h1 ⊢
    · refine ⟨⟨_, rfl, by omega⟩, ⟨_, rfl, by omega⟩⟩
    · refine ⟨⟨_, rfl, by omega⟩, ⟨_, rfl, by omega⟩⟩

example : (BitField.mk 8 0 .lsb1 .msbLeft).indices = [8, 7, 6, 5, 4, 3, 2, 1] ∧
    (BitField.mk 8 0 .lsb1 .msbLeft).lsb = .ok 1 ∧ (BitField.mk 8 0 .lsb1 .msbLeft).msb = .ok 8 := by
  decide

/-- C03: writing one bit. -/
theorem C03_bit_write (b : BitField) (i x : Int) (p : Nat)
    (hp : weightExp b.numbering.code b.width i = p) (hv : p < b.width)
    (hb : Fits b.width b.value) (hx : x = 0 ∨ x = 1) :
    ∃ b', b.setitem (.idx i) x = (b', .ok ()) ∧ b'.getitem (.idx i) = .ok x ∧
      SameOutside p 1 b.value b'.value ∧ Fits b.width b'.value := by
  have hp' : b.wt i = p := hp
  have hn := newIndex_eq b i x
  rw [hp', if_pos (by omega), if_pos (by omega)] at hn
  simp only [Int.toNat_natCast] at hn
  refine ⟨_, setitem_idx_ok hn, ?_, ?_, ?_⟩
  · unfold getitem
    simp only [getIndex_eq]
    have : ∀ u, BitField.wt { b with value := u } i = p := fun u => hp'
    rw [this, if_pos (by omega)]
    simp only [Int.toNat_natCast]
    congr 1
    rcases hx with rfl | rfl
    · rw [bitOf_eq]
      simp only [zero_ne_one, if_false, Int.testBit_land]
      unfold maxval
      rw [testBit_compl _ _ _ hv, testBit_pow]; simp
    · rw [bitOf_eq]
      simp only [if_true, Int.testBit_lor, testBit_pow]; simp
  · intro k hk
    rw [bitOf_eq_iff]
    have hk' : k ≠ p := by omega
    rcases hx with rfl | rfl
    · simp only [zero_ne_one, if_false, Int.testBit_land]
      by_cases hkW : k < b.width
      · unfold maxval
        rw [testBit_compl _ _ _ hkW, testBit_pow]; simp [hk']
      · rw [(fits_iff _ _).1 hb k (by omega)]; rfl
    · simp only [if_true, Int.testBit_lor, testBit_pow]; simp [hk']
  · rcases hx with rfl | rfl
    · simp only [zero_ne_one, if_false]; exact fits_land_left _ hb
    · simp only [if_true]; exact fits_lor hb (fits_pow hv)

/-- C03, error branch: an index outside the field is rejected whatever the value. -/
theorem C03_bit_write_invalid (b : BitField) (i x : Int)
    (h : ¬ (0 ≤ weightExp b.numbering.code b.width i ∧
      weightExp b.numbering.code b.width i < b.width)) :
    b.setitem (.idx i) x = (b, .error .valueError) := by
  have hn := newIndex_eq b i x
  rw [if_neg (show ¬ (0 ≤ b.wt i ∧ b.wt i < b.width) from h)] at hn
  exact setitem_idx_error hn

example : (BitField.mk 8 0b10100000 .msb0 .lsbLeft).setitem (.idx 1) 1
    = (BitField.mk 8 0b11100000 .msb0 .lsbLeft, .ok ()) := by decide

/-- C04: MSB-left slice read. `lo` is the weight of the right end, `n` the number of bits. -/
theorem C04_slice_read (b : BitField) (s e : Int) (lo n : Nat)
    (ho : b.order = .msbLeft) (hn : 1 ≤ n) (hw : lo + n ≤ b.width)
    (hs : weightExp b.numbering.code b.width s = lo + n - 1)
    (he : weightExp b.numbering.code b.width e = lo) :
    b.getitem (.slice (some s) (some e)) = .ok (b.value / 2 ^ lo % 2 ^ n) := by
  have hspan : b.Span s e lo n := ⟨hn, hw, by rw [ho]; exact ⟨he, hs⟩⟩
  unfold getitem
  simp only [getSlice_span hspan]
  unfold maskPos; rw [ho]
  simp only [land_mask_div]

example : let b : BitField := ⟨12, 0b101100111000, .msb1, .msbLeft⟩
    b.getitem (.slice (some 2) (some 6)) = .ok 0b01100 := by decide

/-- C05: MSB-left slice write. -/
theorem C05_slice_write (b : BitField) (s e x : Int) (lo n : Nat)
    (ho : b.order = .msbLeft) (hn : 1 ≤ n) (hw : lo + n ≤ b.width)
    (hs : weightExp b.numbering.code b.width s = lo + n - 1)
    (he : weightExp b.numbering.code b.width e = lo)
    (hb : Fits b.width b.value) (hx : Fits n x) :
    ∃ b', b.setitem (.slice (some s) (some e)) x = (b', .ok ()) ∧
      b'.getitem (.slice (some s) (some e)) = .ok x ∧
      SameOutside lo n b.value b'.value ∧ Fits b.width b'.value := by
  have hspan : b.Span s e lo n := ⟨hn, hw, by rw [ho]; exact ⟨he, hs⟩⟩
  have hnew := newSlice_span hspan x
  rw [if_pos (by have := hx.2; omega)] at hnew
  have hm : b.maskPos lo n = lo := by unfold maskPos; rw [ho]
  rw [hm] at hnew
  refine ⟨_, setitem_slice_ok hnew, ?_, ?_, ?_⟩
  · have := C04_slice_read { b with value := Int.lor (Int.land b.value (b.maxval - (2 ^ n - 1) * 2 ^ lo)) (x * 2 ^ lo) } s e lo n ho hn hw hs he
    rw [this]
    congr 1
    apply testBit_ext
    intro k
    rw [testBit_mod, testBit_div]
    by_cases hk : k < n
    · simp only
      rw [testBit_newSlice b lo n lo x (k + lo) (by omega)]
      have h1 : lo ≤ k + lo ∧ k + lo < lo + n := by omega
      simp [h1, hk]
    · rw [(fits_iff _ _).1 hx k (by omega)]; simp [hk]
  · intro k hk
    rw [bitOf_eq_iff]
    simp only
    by_cases hkW : k < b.width
    · rw [testBit_newSlice b lo n lo x k hkW]
      simp only [hk, decide_false, Bool.not_false, Bool.and_true]
      by_cases h1 : lo ≤ k
      · rw [(fits_iff _ _).1 hx (k - lo) (by omega)]; simp
      · simp [h1]
    · rw [(fits_iff _ _).1 hb k (by omega)]
      have : Fits b.width (Int.lor (Int.land b.value (b.maxval - (2 ^ n - 1) * 2 ^ lo)) (x * 2 ^ lo)) :=
        fits_lor (fits_land_left _ hb) (fits_shift hx hw)
      exact (fits_iff _ _).1 this k (by omega)
  · exact fits_lor (fits_land_left _ hb) (fits_shift hx hw)

example : let b : BitField := ⟨12, 0b101100111000, .msb1, .msbLeft⟩
    b.setitem (.slice (some 2) (some 6)) 0b11011
      = (⟨12, 0b111011111000, .msb1, .msbLeft⟩, .ok ()) := by decide

/-- C06, the property as stated: LSB-left slices select and replace exactly the bits `s..e`. -/
def C06_statement : Prop :=
  ∀ (b : BitField) (s e x : Int) (lo n : Nat), b.order = .lsbLeft → 1 ≤ n → lo + n ≤ b.width →
    weightExp b.numbering.code b.width s = lo →
    weightExp b.numbering.code b.width e = lo + n - 1 → Fits b.width b.value → Fits n x →
    b.getitem (.slice (some s) (some e)) = .ok (b.value / 2 ^ lo % 2 ^ n) ∧
    ∃ b', b.setitem (.slice (some s) (some e)) x = (b', .ok ()) ∧
      b'.getitem (.slice (some s) (some e)) = .ok x ∧ SameOutside lo n b.value b'.value

/-- C06 is false of the code: bits 3..7 of 255 read as 16 instead of 31. -/
theorem C06_refuted : ¬ C06_statement := by
  intro h
  have := (h ⟨8, 255, .lsb0, .lsbLeft⟩ 3 7 0 3 5 rfl (by decide) (by decide) (by decide)
    (by decide) (by decide) (by decide)).1
  revert this; decide

/-- C06, what holds: reads and writes of one bit or of the whole field. -/
theorem C06_lsbLeft_partial (b : BitField) (s e x : Int) (lo n : Nat)
    (ho : b.order = .lsbLeft) (hn : 1 ≤ n) (hw : lo + n ≤ b.width)
    (hs : weightExp b.numbering.code b.width s = lo)
    (he : weightExp b.numbering.code b.width e = lo + n - 1)
    (hb : Fits b.width b.value) (hx : Fits n x) (hpart : n = 1 ∨ n = b.width) :
    b.getitem (.slice (some s) (some e)) = .ok (b.value / 2 ^ lo % 2 ^ n) ∧
    ∃ b', b.setitem (.slice (some s) (some e)) x = (b', .ok ()) ∧
      b'.getitem (.slice (some s) (some e)) = .ok x ∧ SameOutside lo n b.value b'.value := by
  have hspan : b.Span s e lo n := ⟨hn, hw, by rw [ho]; exact ⟨hs, he⟩⟩
  have hm : b.maskPos lo n = lo := by
    unfold maskPos; rw [ho]; simp only
    split <;> omega
  have hread : ∀ u, BitField.getitem { b with value := u } (.slice (some s) (some e))
      = .ok (u / 2 ^ lo % 2 ^ n) := by
    intro u
    have hspan' : BitField.Span { b with value := u } s e lo n := hspan
    unfold getitem
    simp only [getSlice_span hspan']
    have : BitField.maskPos { b with value := u } lo n = lo := hm
    rw [this, land_mask_div]
  refine ⟨hread b.value, ?_⟩
  have hnew := newSlice_span hspan x
  rw [if_pos (by have := hx.2; omega), hm] at hnew
  refine ⟨_, setitem_slice_ok hnew, ?_, ?_⟩
  · rw [hread]
    congr 1
    apply testBit_ext
    intro k
    rw [testBit_mod, testBit_div]
    by_cases hk : k < n
    · rw [testBit_newSlice b lo n lo x (k + lo) (by omega)]
      have h1 : lo ≤ k + lo ∧ k + lo < lo + n := by omega
      simp [h1, hk]
    · rw [(fits_iff _ _).1 hx k (by omega)]; simp [hk]
  · intro k hk
    rw [bitOf_eq_iff]
    simp only
    by_cases hkW : k < b.width
    · rw [testBit_newSlice b lo n lo x k hkW]
      simp only [hk, decide_false, Bool.not_false, Bool.and_true]
      by_cases h1 : lo ≤ k
      · rw [(fits_iff _ _).1 hx (k - lo) (by omega)]; simp
      · simp [h1]
    · rw [(fits_iff _ _).1 hb k (by omega)]
      have : Fits b.width (Int.lor (Int.land b.value (b.maxval - (2 ^ n - 1) * 2 ^ lo)) (x * 2 ^ lo)) :=
        fits_lor (fits_land_left _ hb) (fits_shift hx hw)
      exact (fits_iff _ _).1 this k (by omega)

/-- What an LSB-left slice read really returns when it is neither one bit nor the whole field:
the `n` bits starting at the *highest* selected bit, scaled by `2^(n-1)`. -/
theorem C06_exact_read (b : BitField) (s e : Int) (lo n : Nat)
    (ho : b.order = .lsbLeft) (hn : 1 ≤ n) (hw : lo + n ≤ b.width) (hne : n ≠ b.width)
    (hs : weightExp b.numbering.code b.width s = lo)
    (he : weightExp b.numbering.code b.width e = lo + n - 1) :
    b.getitem (.slice (some s) (some e)) =
      .ok (b.value / 2 ^ (lo + n - 1) % 2 ^ n * 2 ^ (n - 1)) := by
  have hspan : b.Span s e lo n := ⟨hn, hw, by rw [ho]; exact ⟨hs, he⟩⟩
  have hm : b.maskPos lo n = lo + n - 1 := by
    unfold maskPos; rw [ho]; simp only; rw [if_neg hne]
  unfold getitem
  simp only [getSlice_span hspan]
  rw [hm]
  congr 1
  apply testBit_ext
  intro k
  rw [testBit_div, Int.testBit_land, testBit_mul, testBit_ones, testBit_mul, testBit_mod,
    testBit_div]
  by_cases h1 : n - 1 ≤ k
  · have h2 : lo + n - 1 ≤ k + lo := by omega
    have h3 : k - (n - 1) + (lo + n - 1) = k + lo := by omega
    have h4 : k + lo - (lo + n - 1) = k - (n - 1) := by omega
    simp only [h1, h2, h3, h4, decide_true, Bool.true_and, Bool.and_comm]
  · have h2 : ¬ lo + n - 1 ≤ k + lo := by omega
    simp [h1, h2]

/-- What an LSB-left slice write really does when it is neither one bit nor the whole field: it
clears the `n` bits from the highest selected one upwards (as far as they exist) and ORs `x` over
the selected bits. -/
theorem C06_exact_write (b : BitField) (s e x : Int) (lo n : Nat)
    (ho : b.order = .lsbLeft) (hn : 1 ≤ n) (hw : lo + n ≤ b.width) (hne : n ≠ b.width)
    (hs : weightExp b.numbering.code b.width s = lo)
    (he : weightExp b.numbering.code b.width e = lo + n - 1)
    (hx : Fits n x) :
    ∃ b', b.setitem (.slice (some s) (some e)) x = (b', .ok ()) ∧
      ∀ k, k < b.width → bitOf b'.value k =
        if (bitOf b.value k = 1 ∧ ¬ (lo + n - 1 ≤ k ∧ k < lo + n - 1 + n)) ∨
           (lo ≤ k ∧ bitOf x (k - lo) = 1) then 1 else 0 := by
  have hspan : b.Span s e lo n := ⟨hn, hw, by rw [ho]; exact ⟨hs, he⟩⟩
  have hm : b.maskPos lo n = lo + n - 1 := by
    unfold maskPos; rw [ho]; simp only; rw [if_neg hne]
  have hnew := newSlice_span hspan x
  rw [if_pos (by have := hx.2; omega), hm] at hnew
  refine ⟨_, setitem_slice_ok hnew, ?_⟩
  intro k hk
  rw [bitOf_eq, testBit_newSlice b lo n _ x k hk]
  rw [testBit_eq, testBit_eq]
  simp only [Bool.or_eq_true, Bool.and_eq_true, Bool.not_eq_true', decide_eq_true_eq,
    decide_eq_false_iff_not]

example : (BitField.mk 8 255 .lsb0 .lsbLeft).getitem (.slice (some 3) (some 7)) = .ok 16 ∧
    (BitField.mk 8 255 .lsb0 .lsbLeft).setitem (.slice (some 3) (some 5)) 0
      = (⟨8, 31, .lsb0, .lsbLeft⟩, .ok ()) ∧
    (BitField.mk 8 255 .lsb0 .lsbLeft).getitem (.slice (some 0) (some 7)) = .ok 255 := by decide

/-- C07: a slice is accepted exactly when both bounds are indices of the field and the first is
not to the right of the second; otherwise ValueError, and TypeError for an omitted bound (unless
the other bound, checked first, is invalid). Reads and writes agree on rejection. -/
theorem C07_range_acceptance (b : BitField) (s e : Int) :
    let ws := weightExp b.numbering.code b.width s
    let we := weightExp b.numbering.code b.width e
    let good := (0 ≤ ws ∧ ws < b.width) ∧ (0 ≤ we ∧ we < b.width) ∧
      (match b.order with | .msbLeft => we ≤ ws | .lsbLeft => ws ≤ we)
    ((∃ v, b.getitem (.slice (some s) (some e)) = .ok v) ↔ good) ∧
    (¬ good → b.getitem (.slice (some s) (some e)) = .error .valueError ∧
      ∀ x, b.setitem (.slice (some s) (some e)) x = (b, .error .valueError)) := by
  intro ws we good
  have hg : good ↔ b.RangeOk s e := by
    show good ↔ _ ∧ _ ∧ b.Ordered s e
    unfold Ordered
    exact Iff.rfl
  have hbad : ¬ good → b.getitem (.slice (some s) (some e)) = .error .valueError ∧
      ∀ x, b.setitem (.slice (some s) (some e)) x = (b, .error .valueError) := by
    intro h
    rw [hg] at h
    have hc := checkRange_some b s e
    rw [if_neg h] at hc
    constructor
    · unfold getitem getSlice; simp only [hc]; rfl
    · intro x; unfold setitem newSlice; simp only [hc, py_bind_error]
  refine ⟨⟨?_, ?_⟩, hbad⟩
  · rintro ⟨v, hv⟩
    by_contra h
    rw [(hbad h).1] at hv; cases hv
  · intro h
    obtain ⟨lo, n, hspan⟩ := (rangeOk_iff b s e).1 (hg.1 h)
    exact ⟨_, getSlice_span hspan⟩

/-- C07, omitted bounds. -/
theorem C07_omitted_bounds (b : BitField) (s : Int) (o : Option Int) :
    b.getitem (.slice none o) = .error .typeError ∧
    b.getitem (.slice (some s) none) =
      if 0 ≤ weightExp b.numbering.code b.width s ∧ weightExp b.numbering.code b.width s < b.width
      then .error .typeError else .error .valueError := by
  constructor
  · rfl
  · have := checkIndex_some b s
    unfold getitem getSlice checkRange
    simp only [this]
    change _ = if 0 ≤ b.wt s ∧ b.wt s < b.width then _ else _
    split <;> rfl

example : let b : BitField := ⟨8, 5, .lsb0, .msbLeft⟩
    b.getitem (.slice (some 7) (some 0)) = .ok 5 ∧
    b.getitem (.slice (some 0) (some 7)) = .error .valueError := by decide

/-- C08, the property as stated: whatever is assigned must fit its target or be rejected. -/
def C08_statement : Prop :=
  (∀ (v : Int) (w : Nat) (n o : Int) (b : BitField), BitField.init v w n o = .ok b → Fits w v) ∧
  (∀ (b : BitField) (x : Int), (b.setValue x).2 = .ok () → Fits b.width x) ∧
  (∀ (b : BitField) (i x : Int), (b.setitem (.idx i) x).2 = .ok () → Fits 1 x) ∧
  (∀ (b : BitField) (s e x : Int), (b.setitem (.slice (some s) (some e)) x).2 = .ok () →
    Fits ((weightExp b.numbering.code b.width s - weightExp b.numbering.code b.width e).natAbs + 1)
      x)

/-- C08 is false: a negative constructor value is accepted, and all three assignments accept
`2^n`. -/
theorem C08_refuted : ¬ C08_statement ∧
    (∃ b, BitField.init (-1) 8 0 1 = .ok b) ∧
    ((BitField.mk 8 0 .lsb0 .msbLeft).setValue 256 = (⟨8, 256, .lsb0, .msbLeft⟩, .ok ())) ∧
    ((BitField.mk 8 0 .lsb0 .msbLeft).setitem (.idx 3) 2 = (⟨8, 0, .lsb0, .msbLeft⟩, .ok ())) ∧
    ((BitField.mk 8 0 .lsb0 .msbLeft).setitem (.slice (some 3) (some 0)) 16
      = (⟨8, 16, .lsb0, .msbLeft⟩, .ok ())) := by
  refine ⟨?_, ⟨⟨8, -1, .lsb0, .lsbLeft⟩, by decide⟩, by decide, by decide, by decide⟩
  intro h
  have := h.2.1 ⟨8, 0, .lsb0, .msbLeft⟩ 256 (by decide)
  revert this; decide

/-- C08, what holds: the exact acceptance thresholds. Everything above `2^n` (above `2^w - 1` in
the constructor) is rejected; `2^n` itself and negative numbers are not. -/
theorem C08_acceptance_partial :
    (∀ (v : Int) (w : Nat) (n o : Int), (∃ b, BitField.init v w n o = .ok b) ↔
      w ≤ 64 ∧ v ≤ 2 ^ w - 1 ∧ (0 ≤ n ∧ n ≤ 3) ∧ (0 ≤ o ∧ o ≤ 1)) ∧
    (∀ (b : BitField) (x : Int), (b.setValue x).2 =
      if x ≤ 2 ^ b.width then .ok () else .error .valueError) ∧
    (∀ (b : BitField) (i x : Int), i ∈ b.indices → (b.setitem (.idx i) x).2 =
      if x ≤ 2 then .ok () else .error .valueError) ∧
    (∀ (b : BitField) (s e x : Int), (∃ v, b.getitem (.slice (some s) (some e)) = .ok v) →
      (b.setitem (.slice (some s) (some e)) x).2 =
      if x ≤ 2 ^ ((weightExp b.numbering.code b.width s
          - weightExp b.numbering.code b.width e).natAbs + 1)
      then .ok () else .error .valueError) := by
  refine ⟨?_, ?_, ?_, ?_⟩
  · intro v w n o
    unfold BitField.init MAX_WIDTH
    by_cases h1 : w > 64
    · simp only [h1, if_true]
      constructor
      · rintro ⟨b, hb⟩; cases hb
      · rintro ⟨h, _⟩; omega
    · by_cases h2 : v > 2 ^ w - 1
      · simp only [h1, h2, if_true, if_false]
        constructor
        · rintro ⟨b, hb⟩; cases hb
        · rintro ⟨_, h, _⟩; omega
      · simp only [h1, h2, if_false]
        have hn : (∃ x, numberingOf n = .ok x) ↔ 0 ≤ n ∧ n ≤ 3 := by
          unfold numberingOf
          split
          · simp
          · simp
          · simp
          · simp
          · constructor
            · rintro ⟨x, hx⟩; cases hx
            · intro h; exfalso; simp only [imp_false] at *; omega
        have ho : (∃ x, orderOf o = .ok x) ↔ 0 ≤ o ∧ o ≤ 1 := by
          unfold orderOf
          split
          · simp
          · simp
          · constructor
            · rintro ⟨x, hx⟩; cases hx
            · intro h; exfalso; simp only [imp_false] at *; omega
        rw [← hn, ← ho]
        have h3 : w ≤ 64 := by omega
        have h4 : v ≤ 2 ^ w - 1 := by omega
        cases numberingOf n <;> cases orderOf o <;> simp [h3, h4]
  · intro b x
    unfold setValue checkValue
    have : b.width < 2 ^ b.width := Nat.lt_two_pow_self
    have hlt : (b.width : Int) < 2 ^ b.width := by exact_mod_cast this
    have h1 : ¬ ((b.width : Int) < 0 ∨ (b.width : Int) > b.maxval) := by unfold maxval; omega
    simp only [Option.getD_none, h1, if_false, pow2_nat]
    by_cases hx : x ≤ 2 ^ b.width
    · have : ¬ x > 2 ^ b.width := by omega
      simp only [hx, this, if_true, if_false, py_pure]
    · have : x > 2 ^ b.width := by omega
      simp [hx, this]
  · intro b i x hi
    rw [mem_indices] at hi
    have hn := newIndex_eq b i x
    rw [if_pos hi] at hn
    split at hn
    · rename_i hx; rw [setitem_idx_ok hn, if_pos hx]
    · rename_i hx; rw [setitem_idx_error hn, if_neg hx]
  · intro b s e x ⟨v, hv⟩
    have hr : b.RangeOk s e := by
      by_contra h
      have hc := checkRange_some b s e
      rw [if_neg h] at hc
      unfold getitem getSlice at hv; simp only [hc, py_bind_error] at hv; cases hv
    obtain ⟨lo, n, hspan⟩ := (rangeOk_iff b s e).1 hr
    have hn : (b.wt s - b.wt e).natAbs + 1 = n := by
      obtain ⟨h1, h2, h3⟩ := hspan
      cases ho : b.order <;> simp only [ho] at h3 <;> omega
    change _ = if x ≤ 2 ^ ((b.wt s - b.wt e).natAbs + 1) then _ else _
    rw [hn]
    have hnew := newSlice_span hspan x
    split at hnew
    · rename_i hx; rw [setitem_slice_ok hnew, if_pos hx]
    · rename_i hx; rw [setitem_slice_error hnew, if_neg hx]

/-- C12: a failing operation leaves the field as it was, and no operation changes width, numbering
or order. For every field, in range or not. -/
theorem C12_failure_atomic (b : BitField) (op : BfOp) :
    (∀ err, (op.run b).2 = .error err → (op.run b).1 = b) ∧
    (op.run b).1.width = b.width ∧ (op.run b).1.numbering = b.numbering ∧
    (op.run b).1.order = b.order := by
  have hset : ∀ k x, (∀ err, (b.setitem k x).2 = .error err → (b.setitem k x).1 = b) ∧
    (b.setitem k x).1.width = b.width ∧ (b.setitem k x).1.numbering = b.numbering ∧
    (b.setitem k x).1.order = b.order := by
    intro k x
    unfold BitField.setitem
    split
    · simp
    · simp
  cases op with
  | setitem k x => exact hset k x
  | setValue x =>
    simp only [BfOp.run, BitField.setValue]
    split <;> simp
  | set i =>
    simp only [BfOp.run, BitField.set]
    split
    · simp
    · split
      · simp
      · split
        · exact hset _ _
        · simp
  | clear i =>
    simp only [BfOp.run, BitField.clear]
    split
    · simp
    · split
      · simp
      · split
        · exact hset _ _
        · simp

example : (BfOp.run ⟨8, 77, .lsb0, .msbLeft⟩ (.setitem (.slice (some 3) (some 0)) 17))
    = (⟨8, 77, .lsb0, .msbLeft⟩, .error .valueError) := by decide

/-- The value assigned by an operation fits the bits it is assigned to. -/
def OpFits (scheme W : Nat) : BfOp → Prop
  | .setitem (.idx _) x => Fits 1 x
  | .setitem (.slice (some s) (some e)) x =>
    Fits ((weightExp scheme W s - weightExp scheme W e).natAbs + 1) x
  | .setitem _ _ => True
  | .setValue x => Fits W x
  | .set _ => True
  | .clear _ => True

theorem fits_step (b : BitField) (op : BfOp) (hb : Fits b.width b.value)
    (h : OpFits b.numbering.code b.width op) : Fits b.width (op.run b).1.value := by
  cases op with
  | setitem k x =>
    cases k with
    | idx i => exact fits_setIndex b i x hb h
    | slice s e =>
      simp only [BfOp.run, BitField.setitem]
      cases hn : b.newSlice s e x with
      | error err => exact hb
      | ok v =>
        simp only
        cases s with
        | none => cases hn
        | some s =>
          cases e with
          | none =>
            unfold newSlice checkRange at hn
            rw [checkIndex_some] at hn
            split at hn <;> cases hn
          | some e =>
            by_cases hr : b.RangeOk s e
            · obtain ⟨lo, n, hspan⟩ := (rangeOk_iff b s e).1 hr
              rw [newSlice_span hspan] at hn
              have hnn : (b.wt s - b.wt e).natAbs + 1 = n := by
                obtain ⟨h1, h2, h3⟩ := hspan
                cases ho : b.order <;> simp only [ho] at h3 <;> omega
              have hx : Fits n x := by rw [← hnn]; exact h
              split at hn
              · injection hn with hn
                rw [← hn]
                exact fits_lor (fits_land_left _ hb) (fits_shift hx hspan.2.1)
              · cases hn
            · have hc := checkRange_some b s e
              rw [if_neg hr] at hc
              unfold newSlice at hn; simp only [hc, py_bind_error] at hn; cases hn
  | setValue x =>
    simp only [BfOp.run, BitField.setValue]
    split
    · exact h
    · exact hb
  | set i =>
    simp only [BfOp.run, BitField.set]
    split
    · exact fits_maxval b
    · split
      · exact fits_maxval b
      · split
        · exact fits_setIndex b _ 1 hb (by decide)
        · exact hb
  | clear i =>
    have h0 : Fits b.width 0 := ⟨le_refl _, by positivity⟩
    simp only [BfOp.run, BitField.clear]
    split
    · exact h0
    · split
      · exact h0
      · split
        · exact fits_setIndex b _ 0 hb (by decide)
        · exact hb

/-- C09: after any history of operations whose values fit, the value is within `0..maxval`. -/
theorem C09_range_invariant (v : Int) (w : Nat) (num ord : Int) (b : BitField) (ops : List BfOp)
    (hinit : BitField.init v w num ord = .ok b) (hv : 0 ≤ v)
    (hops : ∀ op ∈ ops, OpFits b.numbering.code b.width op) :
    0 ≤ (bfRun b ops).value ∧ (bfRun b ops).value ≤ (bfRun b ops).maxval := by
  have hb : Fits b.width b.value := by
    unfold BitField.init at hinit
    by_cases h1 : w > MAX_WIDTH
    · simp only [h1, if_true] at hinit; cases hinit
    · by_cases h2 : v > 2 ^ w - 1
      · simp only [h1, h2, if_true, if_false] at hinit; cases hinit
      · simp only [h1, h2, if_false] at hinit
        cases hn : numberingOf num <;> cases ho : orderOf ord <;>
          simp only [hn, ho, py_pure, py_bind_ok, py_bind_error] at hinit <;> cases hinit
        unfold Fits; simp only; omega
  clear hinit
  have key : ∀ (ops : List BfOp) (b : BitField), Fits b.width b.value →
      (∀ op ∈ ops, OpFits b.numbering.code b.width op) →
      Fits b.width (bfRun b ops).value ∧ (bfRun b ops).width = b.width := by
    intro ops
    induction ops with
    | nil => intro b hb _; exact ⟨hb, rfl⟩
    | cons op ops ih =>
      intro b hb hops
      have hat := C12_failure_atomic b op
      have h1 := fits_step b op hb (hops op (by simp))
      have := ih (op.run b).1 (by rw [hat.2.1]; exact h1) (by
        intro o ho
        rw [hat.2.1, hat.2.2.1]
        exact hops o (by simp [ho]))
      rw [hat.2.1] at this
      exact this
  obtain ⟨h1, h2⟩ := key ops b hb hops
  unfold maxval
  rw [h2]
  unfold Fits at h1
  omega

example : let ops := [BfOp.setitem (.slice (some 3) (some 6)) 9, .set (some 2), .clear (some 40),
      .setValue 200]
    (∀ op ∈ ops, OpFits 0 8 op) ∧ bfRun ⟨8, 3, .lsb0, .lsbLeft⟩ ops = ⟨8, 200, .lsb0, .lsbLeft⟩ := by
  refine ⟨?_, by decide⟩
  intro op h
  simp only [List.mem_cons, List.not_mem_nil, or_false] at h
  rcases h with rfl | rfl | rfl | rfl <;> simp only [OpFits] <;> decide

/-- C10, the property as stated. -/
def C10_statement : Prop :=
  ∀ (b : BitField) (i : Int) (p : Nat), weightExp b.numbering.code b.width i = p → p < b.width →
    Fits b.width b.value →
    (∃ b', b.set (some i) = (b', .ok ()) ∧ bitOf b'.value p = 1 ∧
      SameOutside p 1 b.value b'.value) ∧
    (∃ b', b.clear (some i) = (b', .ok ()) ∧ bitOf b'.value p = 0 ∧
      SameOutside p 1 b.value b'.value)

/-- C10 is false for index 0, which is treated as "no index". -/
theorem C10_refuted : ¬ C10_statement := by
  intro h
  obtain ⟨⟨b', h1, _, h3⟩, _⟩ := h ⟨8, 0, .lsb0, .msbLeft⟩ 0 0 (by decide) (by decide) (by decide)
  have hb : b' = ⟨8, 255, .lsb0, .msbLeft⟩ := by
    have : BitField.set ⟨8, 0, .lsb0, .msbLeft⟩ (some 0) = (⟨8, 255, .lsb0, .msbLeft⟩, .ok ()) := by
      decide
    rw [this] at h1
    injection h1 with h1 _
    exact h1.symm
  subst hb
  have := h3 1 (by omega)
  revert this; decide

theorem setitem_bit (b : BitField) (i x : Int) (p : Nat)
    (hp : weightExp b.numbering.code b.width i = p) (hv : p < b.width)
    (hb : Fits b.width b.value) (hx : x = 0 ∨ x = 1) :
    ∃ b', b.setitem (.idx i) x = (b', .ok ()) ∧ bitOf b'.value p = x ∧
      SameOutside p 1 b.value b'.value := by
  obtain ⟨b', h1, h2, h3, _⟩ := C03_bit_write b i x p hp hv hb hx
  refine ⟨b', h1, ?_, h3⟩
  have hat := C12_failure_atomic b (.setitem (.idx i) x)
  simp only [BfOp.run, h1] at hat
  rw [C01_bit_read, hat.2.1, hat.2.2.1, hp, if_pos (by omega)] at h2
  injection h2

/-- C10, what holds: every valid index except 0; no argument (and index 0) means all bits. -/
theorem C10_set_clear_partial (b : BitField) :
    (∀ (i : Int) (p : Nat), i ≠ 0 → weightExp b.numbering.code b.width i = p → p < b.width →
      Fits b.width b.value →
      (∃ b', b.set (some i) = (b', .ok ()) ∧ bitOf b'.value p = 1 ∧
        SameOutside p 1 b.value b'.value) ∧
      (∃ b', b.clear (some i) = (b', .ok ()) ∧ bitOf b'.value p = 0 ∧
        SameOutside p 1 b.value b'.value)) ∧
    b.set none = ({ b with value := 2 ^ b.width - 1 }, .ok ()) ∧
    b.clear none = ({ b with value := 0 }, .ok ()) ∧
    b.set (some 0) = b.set none ∧ b.clear (some 0) = b.clear none := by
  refine ⟨?_, rfl, rfl, rfl, rfl⟩
  intro i p hi hp hv hb
  have hp' : b.wt i = p := hp
  have hc : b.checkIndex (some i) = .ok () := by rw [checkIndex_some, hp', if_pos (by omega)]
  unfold BitField.set BitField.clear
  simp only [hi, if_false, hc]
  exact ⟨setitem_bit b i 1 p hp hv hb (Or.inr rfl), setitem_bit b i 0 p hp hv hb (Or.inl rfl)⟩

example : BitField.set ⟨8, 0, .lsb0, .msbLeft⟩ (some 3) = (⟨8, 8, .lsb0, .msbLeft⟩, .ok ()) := by
  decide

/-- C11, the property as stated, for MSB-left fields. -/
def C11_statement : Prop :=
  ∀ (b : BitField) (s e : Int) (lo n : Nat), b.order = .msbLeft → 1 ≤ n → lo + n ≤ b.width →
    weightExp b.numbering.code b.width s = lo + n - 1 →
    weightExp b.numbering.code b.width e = lo →
    (b.isRangeSet (some s) (some e) = .ok true ↔ AllBits lo n b.value 1) ∧
    (b.isRangeClr (some s) (some e) = .ok true ↔ AllBits lo n b.value 0) ∧
    (∀ x, x = 0 ∨ x = 1 → (b.isRange (some s) (some e) x = .ok true ↔ AllBits lo n b.value x))

/-- C11 is false: with all bits 1, the upper half is reported not set and clear. -/
theorem C11_refuted : ¬ C11_statement ∧
    BitField.isRangeSet ⟨8, 255, .lsb0, .msbLeft⟩ (some 7) (some 4) = .ok false ∧
    BitField.isRangeClr ⟨8, 255, .lsb0, .msbLeft⟩ (some 7) (some 4) = .ok true := by
  refine ⟨?_, by decide, by decide⟩
  intro h
  have h1 := (h ⟨8, 255, .lsb0, .msbLeft⟩ 7 4 4 4 rfl (by decide) (by decide) (by decide)
    (by decide)).2.1.1 (by decide)
  have := h1 4 (by decide) (by decide)
  revert this; decide

/-- C11, what the three methods really compute on MSB-left fields: `isRange(..., 0)` is right;
`isRangeSet`, which is `isRange(..., 1)`, is right only for ranges that end at the LSB (it is False otherwise); `isRangeClr` is
the negation of `isRangeSet`. -/
theorem C11_isRange_partial (b : BitField) (s e : Int) (lo n : Nat)
    (ho : b.order = .msbLeft) (hn : 1 ≤ n) (hw : lo + n ≤ b.width)
    (hs : weightExp b.numbering.code b.width s = lo + n - 1)
    (he : weightExp b.numbering.code b.width e = lo) :
    (∃ r, b.isRange (some s) (some e) 0 = .ok r ∧ (r = true ↔ AllBits lo n b.value 0)) ∧
    (∃ r, b.isRangeSet (some s) (some e) = .ok r ∧ b.isRange (some s) (some e) 1 = .ok r ∧
      (r = true ↔ lo = 0 ∧ AllBits lo n b.value 1) ∧
      b.isRangeClr (some s) (some e) = .ok (!r)) ∧
    (∀ x, x ≠ 0 → x ≠ 1 → b.isRange (some s) (some e) x = .error .valueError) := by
  have hspan : b.Span s e lo n := ⟨hn, hw, by rw [ho]; exact ⟨he, hs⟩⟩
  have hc := checkRange_ok (span_rangeOk hspan)
  have hg := C04_slice_read b s e lo n ho hn hw hs he
  unfold getitem at hg; simp only at hg
  have hm := bitmask_span hspan
  have hmp : b.maskPos lo n = lo := by unfold maskPos; rw [ho]
  rw [hmp] at hm
  refine ⟨?_, ?_, ?_⟩
  · refine ⟨decide (b.value / 2 ^ lo % 2 ^ n = 0), ?_, ?_⟩
    · unfold isRange
      rw [hc, hg, hm]
      rfl
    · rw [allBits_iff _ _ _ _ (Or.inl rfl), zero_mul]; simp
  · have hset : b.isRangeSet (some s) (some e)
        = .ok (decide (b.value / 2 ^ lo % 2 ^ n = (2 ^ n - 1) * 2 ^ lo)) := by
      unfold isRangeSet isRange
      rw [hc, hg, hm]
      rfl
    refine ⟨_, hset, hset, ?_, by unfold isRangeClr; rw [hset]; rfl⟩
    rw [allBits_iff _ _ _ _ (Or.inr rfl), one_mul]
    simp only [decide_eq_true_eq]
    constructor
    · intro h
      have hlt : b.value / 2 ^ lo % 2 ^ n < 2 ^ n := Int.emod_lt_of_pos _ (by positivity)
      have h0 : lo = 0 := by
        by_contra hlo
        obtain ⟨l, rfl⟩ : ∃ l, lo = l + 1 := ⟨lo - 1, by omega⟩
        obtain ⟨m, rfl⟩ : ∃ m, n = m + 1 := ⟨n - 1, by omega⟩
        have h1 : (1:Int) ≤ 2 ^ l := by
          have : 1 ≤ (2:Nat) ^ l := Nat.one_le_two_pow
          exact_mod_cast this
        have h2 : (1:Int) ≤ 2 ^ m := by
          have : 1 ≤ (2:Nat) ^ m := Nat.one_le_two_pow
          exact_mod_cast this
        rw [h, pow_succ, pow_succ] at hlt
        have : (2 ^ m * 2 - 1) * 1 ≤ (2 ^ m * 2 - 1) * (2:Int) ^ l :=
          Int.mul_le_mul_of_nonneg_left h1 (by omega)
        rw [← mul_assoc] at hlt
        omega
      subst h0
      simp only [pow_zero, mul_one] at h
      exact ⟨rfl, by simpa using h⟩
    · rintro ⟨rfl, h⟩
      simpa using h
  · intro x h0 h1
    unfold isRange
    rw [hc]
    simp [h0, h1]

example : BitField.isRangeSet ⟨8, 0b00001111, .lsb0, .msbLeft⟩ (some 3) (some 0) = .ok true := by
  decide

/-- The digit value of a character. -/
def charDigit (c : Char) : Nat := c.toNat - '0'.toNat

/-- C13: the printed form. -/
theorem C13_repr (b : BitField) (hw : 1 ≤ b.width) (hb : Fits b.width b.value) :
    b.repr.length = b.width ∧ (∀ c ∈ b.repr, c = '0' ∨ c = '1') ∧
    (ofDigits 2 (b.repr.map charDigit) : Int) = b.value := by
  obtain ⟨h0, h1⟩ := hb
  obtain ⟨n, hn⟩ := Int.eq_ofNat_of_zero_le h0
  have hlt : n < 2 ^ b.width := by
    rw [hn] at h1; exact_mod_cast h1
  obtain ⟨d1, d2, d3, d4⟩ := digits_spec 2 n (le_refl 2)
  have hr : b.repr = padLeft '0' b.width (numeral 2 n) := by
    unfold BitField.repr
    rw [hn, if_neg (by omega)]; rfl
  have hlen : (numeral 2 n).length ≤ b.width := by
    unfold numeral; rw [List.length_map]; exact d3 b.width hw hlt
  rw [hr]
  refine ⟨?_, ?_, ?_⟩
  · unfold padLeft; rw [List.length_append, List.length_replicate]; omega
  · intro c hc
    unfold padLeft numeral at hc
    rcases List.mem_append.1 hc with hc | hc
    · left; exact (List.mem_replicate.1 hc).2
    · obtain ⟨d, hd, rfl⟩ := List.mem_map.1 hc
      have := d2 d hd
      have : d = 0 ∨ d = 1 := by omega
      rcases this with rfl | rfl
      · left; rfl
      · right; rfl
  · rw [hn]
    norm_cast
    unfold padLeft numeral
    rw [List.map_append, List.map_replicate, List.map_map]
    have h2 : (digits 2 n).map (charDigit ∘ digitChar) = digits 2 n := by
      conv_rhs => rw [← List.map_id (digits 2 n)]
      apply List.map_congr_left
      intro d hd
      exact digitChar_toNat d (by have := d2 d hd; omega)
    rw [h2]
    have : charDigit '0' = 0 := rfl
    rw [this, ofDigits_replicate_zero, d1]

example : (BitField.mk 8 5 .lsb0 .lsbLeft).repr = ['0', '0', '0', '0', '0', '1', '0', '1'] := by
  decide

/-- C13, any value: zeros to fill the width, for a negative value the letter b, and the shortest base-2
numeral of the magnitude, which is never empty. -/
theorem C13_any (b : BitField) : ∃ z ds : Str,
    b.repr = z ++ (if b.value < 0 then ['b'] else []) ++ ds ∧ (∀ c ∈ z, c = '0') ∧
    (∀ c ∈ ds, c = '0' ∨ c = '1') ∧ ofDigits 2 (ds.map charDigit) = b.value.natAbs ∧ ds ≠ [] ∧
    (∀ w, 1 ≤ w → b.value.natAbs < 2 ^ w → ds.length ≤ w) ∧
    b.repr.length = max b.width ((if b.value < 0 then 1 else 0) + ds.length) := by
  obtain ⟨d1, d2, d3, d4⟩ := digits_spec 2 b.value.natAbs (le_refl 2)
  have h2 : (digits 2 b.value.natAbs).map (charDigit ∘ digitChar) = digits 2 b.value.natAbs := by
    conv_rhs => rw [← List.map_id (digits 2 b.value.natAbs)]
    apply List.map_congr_left
    intro d hd
    exact digitChar_toNat d (by have := d2 d hd; omega)
  have hd : ∀ c ∈ numeral 2 b.value.natAbs, c = '0' ∨ c = '1' := by
    intro c hc
    obtain ⟨d, hd, rfl⟩ := List.mem_map.1 hc
    have := d2 d hd
    have : d = 0 ∨ d = 1 := by omega
    rcases this with rfl | rfl
    · left; rfl
    · right; rfl
  have ho : ofDigits 2 ((numeral 2 b.value.natAbs).map charDigit) = b.value.natAbs := by
    unfold numeral
    rw [List.map_map, h2, d1]
  have hl : (numeral 2 b.value.natAbs).length = (digits 2 b.value.natAbs).length := by
    unfold numeral; rw [List.length_map]
  have hn : numeral 2 b.value.natAbs ≠ [] := by
    intro e
    exact d4 (List.map_eq_nil_iff.1 e)
  unfold BitField.repr padLeft
  by_cases hv : b.value < 0
  · simp only [if_pos hv]
    refine ⟨List.replicate _ '0', numeral 2 b.value.natAbs, by rw [List.append_assoc]; rfl,
      fun c hc => (List.mem_replicate.1 hc).2, hd, ho, hn, fun w h1 h2 => hl ▸ d3 w h1 h2, ?_⟩
    rw [List.length_append, List.length_replicate, List.length_cons]
    omega
  · simp only [if_neg hv]
    refine ⟨List.replicate _ '0', numeral 2 b.value.natAbs, by rw [List.append_nil],
      fun c hc => (List.mem_replicate.1 hc).2, hd, ho, hn, fun w h1 h2 => hl ▸ d3 w h1 h2, ?_⟩
    rw [List.length_append, List.length_replicate]
    omega

example : (BitField.mk 8 (-5) .lsb0 .lsbLeft).repr = ['0', '0', '0', '0', 'b', '1', '0', '1'] := by
  decide

/-- C14: the bit predicates. -/
theorem C14_bit_predicates (b : BitField) (i : Int) :
    (∀ v, b.getitem (.idx i) = .ok v →
      b.isBitSet i = .ok (decide (v = 1)) ∧ b.isBitClr i = .ok (decide (v = 0)) ∧
      (v = 0 ∨ v = 1)) ∧
    (i ∉ b.indices → b.isBitSet i = .error .valueError ∧ b.isBitClr i = .error .valueError) := by
  have hg := getIndex_eq b i
  have hc := checkIndex_some b i
  constructor
  · intro v hv
    have hv' : b.getIndex i = .ok v := hv
    rw [hv'] at hg
    split at hg
    · rename_i h
      rw [if_pos h] at hc
      injection hg with hg
      have hv01 : v = 0 ∨ v = 1 := by
        rw [hg]; unfold bitOf; omega
      unfold isBitClr isBitSet isBit
      rw [hc, hv']
      refine ⟨rfl, ?_, hv01⟩
      rcases hv01 with rfl | rfl <;> rfl
    · cases hg
  · intro hi
    rw [mem_indices] at hi
    rw [if_neg hi] at hc
    unfold isBitClr isBitSet isBit
    rw [hc]
    exact ⟨rfl, rfl⟩

example : (BitField.mk 8 4 .lsb0 .lsbLeft).isBitSet 2 = .ok true ∧
    (BitField.mk 8 4 .lsb0 .lsbLeft).isBitClr 2 = .ok false := by decide

end H800
