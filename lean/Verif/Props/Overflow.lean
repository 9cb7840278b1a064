import Verif.Props.BitField
import Verif.Props.Word
import Verif.Lemmas.Registers

/-!
C08 and C19, continued: what the accepted values that do not fit do.
-/

namespace H800

open Spec BitField

/-! ### Auxiliary facts -/

theorem testBit_newSlice_high (b : BitField) (lo n : Nat) (x : Int) (k : Nat) (hw : lo + n ≤ b.width)
    (hk : b.width ≤ k) :
    Int.testBit (Int.lor (Int.land b.value (b.maxval - (2 ^ n - 1) * 2 ^ lo)) (x * 2 ^ lo)) k
      = Int.testBit x (k - lo) := by
  have hfit : Fits b.width (b.maxval - (2 ^ n - 1) * 2 ^ lo) := by
    have h1 : Fits b.width ((2 ^ n - 1) * 2 ^ lo) := fits_shift (n := n) (by
      constructor
      · have : (1:Int) ≤ 2 ^ n := by exact_mod_cast Nat.one_le_two_pow
        omega
      · omega) hw
    unfold maxval
    obtain ⟨h2, h3⟩ := h1
    constructor <;> omega
  rw [Int.testBit_lor, Int.testBit_land, (fits_iff _ _).1 hfit k hk, testBit_mul]
  have : lo ≤ k := by omega
  simp [this]

/-! ### C08 -/

/-- C08: the effect of a slice assignment that is accepted, on an MSB-left field, with any value: the
bits of the value from the lowest of the range on, beyond the highest as well, where they are added to
what is there. -/
theorem C08_slice_effect_partial (b : BitField) (s e x : Int) (lo n : Nat)
    (ho : b.order = .msbLeft) (hn : 1 ≤ n) (hw : lo + n ≤ b.width)
    (hs : weightExp b.numbering.code b.width s = lo + n - 1)
    (he : weightExp b.numbering.code b.width e = lo) (hx : x ≤ 2 ^ n) :
    ∃ b', b.setitem (.slice (some s) (some e)) x = (b', .ok ()) ∧
      ∀ k, bitOf b'.value k =
        if (k < b.width ∧ ¬ (lo ≤ k ∧ k < lo + n) ∧ bitOf b.value k = 1) ∨
          (lo ≤ k ∧ bitOf x (k - lo) = 1) then 1 else 0 := by
  have hspan : b.Span s e lo n := ⟨hn, hw, by rw [ho]; exact ⟨he, hs⟩⟩
  have hm : b.maskPos lo n = lo := by unfold maskPos; rw [ho]
  have hnew := newSlice_span hspan x
  rw [if_pos hx, hm] at hnew
  refine ⟨_, setitem_slice_ok hnew, ?_⟩
  intro k
  rw [bitOf_eq]
  simp only
  by_cases hk : k < b.width
  · rw [testBit_newSlice b lo n lo x k hk, testBit_eq, testBit_eq]
    simp only [Bool.or_eq_true, Bool.and_eq_true, Bool.not_eq_true', decide_eq_true_eq,
      decide_eq_false_iff_not, hk, true_and, and_comm]
  · rw [testBit_newSlice_high b lo n x k hw (by omega), testBit_eq]
    have h1 : lo ≤ k := by omega
    simp only [hk, false_and, false_or, h1, true_and, decide_eq_true_eq]

/-- C08: the effect of an assignment to one bit that is accepted: 1 sets the bit, anything else
clears it. -/
theorem C08_index_effect_partial (b : BitField) (i x : Int) (p : Nat)
    (hp : weightExp b.numbering.code b.width i = p) (hv : p < b.width) (hb : Fits b.width b.value)
    (hx : x ≤ 2) :
    ∃ b', b.setitem (.idx i) x = (b', .ok ()) ∧
      ∀ k, bitOf b'.value k = if k = p then (if x = 1 then 1 else 0) else bitOf b.value k := by
  by_cases h1 : x = 1
  · subst h1
    obtain ⟨b', e1, e2⟩ := setitem_bit b i 1 p hp hv hb (Or.inr rfl)
    refine ⟨b', e1, fun k => ?_⟩
    rw [if_pos rfl]
    split
    · rename_i h; subst h; exact e2.1
    · rename_i h; exact e2.2 k (by omega)
  · obtain ⟨b', e1, e2⟩ := setitem_bit b i 0 p hp hv hb (Or.inl rfl)
    have hsame : b.setitem (.idx i) x = b.setitem (.idx i) 0 := by
      have hn := newIndex_eq b i x
      have hn0 := newIndex_eq b i 0
      unfold setitem
      simp only
      rw [hn, hn0]
      simp [hx, h1]
    refine ⟨b', hsame.trans e1, fun k => ?_⟩
    rw [if_neg h1]
    split
    · rename_i h; subst h; exact e2.1
    · rename_i h; exact e2.2 k (by omega)

/-- C08: an accepted value is stored as it is. -/
theorem C08_value_effect_partial (b : BitField) (x : Int) (hx : x ≤ 2 ^ b.width) :
    (b.setValue x).1 = { b with value := x } := by
  have h1 := C08_acceptance_partial.2.1 b x
  rw [if_pos hx] at h1
  unfold BitField.setValue at h1 ⊢
  cases hc : b.checkValue x none with
  | ok u => rfl
  | error e => rw [hc] at h1; cases h1

/-- Concrete cases: -3 written to bits 4 to 2 sets all bits from there on (beyond the field as well)
but those, and 8 written there sets the bit above. -/
example : weightExp 0 8 4 = (2:Int) + 3 - 1 ∧ weightExp 0 8 2 = 2 ∧
    ((BitField.mk 8 0b01001011 .lsb0 .msbLeft).setitem (.slice (some 4) (some 2)) 8
      = (⟨8, 0b01100011, .lsb0, .msbLeft⟩, .ok ())) ∧
    ((BitField.mk 8 0b01001011 .lsb0 .msbLeft).setitem (.slice (some 4) (some 2)) (-3)
      = (⟨8, -9, .lsb0, .msbLeft⟩, .ok ())) ∧
    ((BitField.mk 8 0b01001011 .lsb0 .msbLeft).setitem (.idx 3) (-5)
      = (⟨8, 0b01000011, .lsb0, .msbLeft⟩, .ok ())) ∧
    ((BitField.mk 8 0 .lsb0 .msbLeft).setValue (-5)).1.value = -5 := by decide +kernel

/-! ### C19 -/

/-- The weight of the lowest bit of a field, as an exponent of two. -/
def Spec.fieldPlace : IField → Nat
  | .command => 36
  | .a => 24
  | .b => 12
  | .c => 0

theorem fieldPlace_eq (f : IField) : fieldPlace f = f.lo := by cases f <;> rfl

theorem iword_set_any (v x : Int) (f : IField) (hx : x ≤ 4096) :
    ∃ v', InstructionWord.set (mkWord v) f x = (mkWord v', .ok ()) ∧
      ∀ k, bitOf v' k = if (k < 48 ∧ ¬ (f.lo ≤ k ∧ k < f.lo + 12) ∧ bitOf v k = 1) ∨
        (f.lo ≤ k ∧ bitOf x (k - f.lo) = 1) then 1 else 0 := by
  have main : ∀ s e : Int, f.key = .slice (some s) (some e) →
      weightExp 3 48 s = f.lo + 12 - 1 → weightExp 3 48 e = f.lo →
      ∃ v', InstructionWord.set (mkWord v) f x = (mkWord v', .ok ()) ∧
        ∀ k, bitOf v' k = if (k < 48 ∧ ¬ (f.lo ≤ k ∧ k < f.lo + 12) ∧ bitOf v k = 1) ∨
          (f.lo ≤ k ∧ bitOf x (k - f.lo) = 1) then 1 else 0 := by
    intro s e hk hs he
    obtain ⟨b', e1, e2⟩ := C08_slice_effect_partial (mkWord v).data s e x f.lo 12 rfl (by decide)
      (show f.lo + 12 ≤ 48 by cases f <;> decide) hs he (by omega)
    have hb' : b' = (mkWord b'.value).data := by
      have := setitem_shape (mkWord v).data (.slice (some s) (some e)) x
      rw [e1] at this
      exact this
    refine ⟨b'.value, ?_, e2⟩
    unfold InstructionWord.set
    rw [hk, e1]
    simp only [mkWord, Prod.mk.injEq, Word.mk.injEq, and_true]
    exact hb'
  cases f
  · exact main 1 12 rfl (by decide) (by decide)
  · exact main 13 24 rfl (by decide) (by decide)
  · exact main 25 36 rfl (by decide) (by decide)
  · exact main 37 48 rfl (by decide) (by decide)

theorem bitOf_or (P Q : Prop) [Decidable P] [Decidable Q] :
    (decide ((if P ∨ Q then (1:Int) else 0) = 1)) = (decide P || decide Q) := by
  by_cases hp : P <;> by_cases hq : Q <;> simp [hp, hq]

/-- What the groups hold after a field was set: the bits of the value from that field on. -/
theorem group_set (v v' x : Int) (lo p : Nat) (hp : p + 12 ≤ 48) (hlo : lo + 12 ≤ p ∨ lo = p ∨ p + 12 ≤ lo)
    (h : ∀ k, bitOf v' k = if (k < 48 ∧ ¬ (lo ≤ k ∧ k < lo + 12) ∧ bitOf v k = 1) ∨
        (lo ≤ k ∧ bitOf x (k - lo) = 1) then 1 else 0) :
    v' / 2 ^ p % 2 ^ 12 =
      if p < lo then v / 2 ^ p % 2 ^ 12
      else if p = lo then x % 2 ^ 12
      else Int.lor (v / 2 ^ p % 2 ^ 12) (x / 2 ^ (p - lo) % 2 ^ 12) := by
  apply testBit_ext
  intro k
  rw [testBit_mod, testBit_div, testBit_eq, h, bitOf_or]
  rcases hlo with hlo | hlo | hlo
  · rw [if_neg (by omega), if_neg (by omega), Int.testBit_lor, testBit_mod, testBit_mod, testBit_div,
      testBit_div, testBit_eq, testBit_eq]
    by_cases hk : k < 12
    · have h1 : k + p < 48 := by omega
      have h2 : ¬ k + p < lo + 12 := by omega
      have h3 : lo ≤ k + p := by omega
      have h4 : k + (p - lo) = k + p - lo := by omega
      simp [hk, h1, h2, h3, h4]
    · simp [hk]
  · subst hlo
    rw [if_neg (by omega), if_pos rfl, testBit_mod, testBit_eq]
    by_cases hk : k < 12
    · have h2 : k + lo < lo + 12 := by omega
      simp [hk, h2]
    · simp [hk]
  · rw [if_pos (by omega), testBit_mod, testBit_div, testBit_eq]
    by_cases hk : k < 12
    · have h1 : k + p < 48 := by omega
      have h3 : ¬ lo ≤ k + p := by omega
      simp [hk, h1, h3]
    · simp [hk]

/-- C19, what setting a field to an accepted value does, for any value (they are those up to 4096):
the fields to the right are unchanged, the field gets the last 12 bits, and the further bits of the
value are added to the fields to the left. -/
theorem C19_set_exact_partial (w : Word) (f : IField) (x : Int) (hw : IsWord w) (hx : x ≤ 4096) :
    ∃ w', InstructionWord.set w f x = (w', .ok ()) ∧ IsWord w' ∧
      ∀ g old, InstructionWord.get w g = .ok old → InstructionWord.get w' g = .ok (
        if fieldPlace g < fieldPlace f then old
        else if g = f then x % 2 ^ 12
        else Int.lor old (x / 2 ^ (fieldPlace g - fieldPlace f) % 2 ^ 12)) := by
  obtain ⟨v', e1, e2⟩ := iword_set_any w.value x f hx
  refine ⟨mkWord v', by rw [isWord_eq hw]; exact e1, ⟨rfl, rfl, rfl⟩, ?_⟩
  intro g old hold
  rw [isWord_eq hw, iword_get] at hold
  injection hold with hold
  rw [iword_get]
  congr 1
  have hgf : (g = f) = (g.lo = f.lo) := by cases f <;> cases g <;> simp [IField.lo]
  have := group_set w.value v' x f.lo g.lo (by cases g <;> decide)
    (by cases f <;> cases g <;> simp [IField.lo]) e2
  unfold field at hold ⊢
  rw [this, hold, fieldPlace_eq, fieldPlace_eq]
  simp only [hgf]

/-- C19, what the constructor accepts and the fields of the word made. -/
theorem C19_init_exact_partial (c a b d : Int) :
    (c ≤ 4096 ∧ a ≤ 4096 ∧ b ≤ 4096 ∧ d ≤ 4096 → ∃ w, InstructionWord.init c a b d = .ok w ∧ IsWord w ∧
      InstructionWord.get w .c = .ok (d % 2 ^ 12) ∧
      InstructionWord.get w .b = .ok (Int.lor (b % 2 ^ 12) (d / 2 ^ 12 % 2 ^ 12)) ∧
      InstructionWord.get w .a =
        .ok (Int.lor (Int.lor (a % 2 ^ 12) (b / 2 ^ 12 % 2 ^ 12)) (d / 2 ^ 24 % 2 ^ 12)) ∧
      InstructionWord.get w .command =
        .ok (Int.lor (Int.lor (Int.lor (c % 2 ^ 12) (a / 2 ^ 12 % 2 ^ 12)) (b / 2 ^ 24 % 2 ^ 12))
          (d / 2 ^ 36 % 2 ^ 12))) ∧
    (¬ (c ≤ 4096 ∧ a ≤ 4096 ∧ b ≤ 4096 ∧ d ≤ 4096) →
      InstructionWord.init c a b d = .error .valueError) := by
  have hset : ∀ (v x : Int) (f : IField), (mkWord v).data.assign f.key x =
      match InstructionWord.set (mkWord v) f x with
      | (w, .ok _) => .ok w.data
      | (_, .error e) => .error e := by
    intro v x f
    unfold InstructionWord.set BitField.assign
    generalize (mkWord v).data.setitem f.key x = p
    obtain ⟨b', r⟩ := p
    cases r <;> rfl
  have hok : ∀ (v x : Int) (f : IField), x ≤ 4096 → ∃ v',
      (mkWord v).data.assign f.key x = .ok (mkWord v').data ∧
      ∀ g : IField, field v' g.lo 12 = if g.lo < f.lo then field v g.lo 12 else if g.lo = f.lo then x % 2 ^ 12
        else Int.lor (field v g.lo 12) (x / 2 ^ (g.lo - f.lo) % 2 ^ 12) := by
    intro v x f hx
    obtain ⟨v', e1, e2⟩ := iword_set_any v x f hx
    refine ⟨v', by rw [hset, e1], fun g => ?_⟩
    exact group_set v v' x f.lo g.lo (by cases g <;> decide)
      (by cases f <;> cases g <;> simp [IField.lo]) e2
  have herr : ∀ (v x : Int) (f : IField), ¬ x ≤ 4096 →
      (mkWord v).data.assign f.key x = .error .valueError := by
    intro v x f hx
    rw [hset, iword_set_large v x f (by omega)]
  have hmk : ∀ v, (⟨(mkWord v).data⟩ : Word) = mkWord v := fun _ => rfl
  constructor
  · rintro ⟨hc, ha, hb, hd⟩
    obtain ⟨v1, a1, f1⟩ := hok 0 c .command hc
    obtain ⟨v2, a2, f2⟩ := hok v1 a .a ha
    obtain ⟨v3, a3, f3⟩ := hok v2 b .b hb
    obtain ⟨v4, a4, f4⟩ := hok v3 d .c hd
    refine ⟨mkWord v4, ?_, ⟨rfl, rfl, rfl⟩, ?_⟩
    · unfold InstructionWord.init
      rw [word_init, if_pos (by decide)]
      simp only [py_bind_ok, a1, a2, a3, a4, py_pure]
    · simp only [iword_get, f4, f3, f2, f1]
      simp [IField.lo]
  · intro h
    unfold InstructionWord.init
    rw [word_init, if_pos (by decide)]
    simp only [py_bind_ok]
    by_cases hc : c ≤ 4096
    · obtain ⟨v1, a1, -⟩ := hok 0 c .command hc
      rw [a1, py_bind_ok]
      by_cases ha : a ≤ 4096
      · obtain ⟨v2, a2, -⟩ := hok v1 a .a ha
        rw [a2, py_bind_ok]
        by_cases hb : b ≤ 4096
        · obtain ⟨v3, a3, -⟩ := hok v2 b .b hb
          rw [a3, py_bind_ok, herr v3 d .c (by tauto), py_bind_error]
        · rw [herr v2 b .b hb, py_bind_error]
      · rw [herr v1 a .a ha, py_bind_error]
    · rw [herr 0 c .command hc, py_bind_error]

/-- Concrete cases: 4096 and -2 as B address. -/
example : InstructionWord.set (mkWord 0o1111222233334444) .b 4096 =
      (mkWord 0o1111222300004444, .ok ()) ∧
    InstructionWord.get (InstructionWord.set (mkWord 0o1111222233334444) .b (-2)).1 .b = .ok 0o7776 ∧
    InstructionWord.get (InstructionWord.set (mkWord 0o1111222233334444) .b (-2)).1 .a = .ok 0o7777 ∧
    InstructionWord.get (InstructionWord.set (mkWord 0o1111222233334444) .b (-2)).1 .c = .ok 0o4444 ∧
    InstructionWord.init 4096 1 4096 2 = .ok (mkWord 0o0000000100000002) ∧
    InstructionWord.init 1 4097 0 0 = .error .valueError := by decide +kernel

end H800
