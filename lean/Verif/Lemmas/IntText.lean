import Verif.Spec.IntText
import Verif.Lemmas.Gen

/-!
Lemmas for whole numbers as Python reads them.
-/

namespace H800
open Spec

/-- The two tables of digits agree. -/
theorem zeros_eq : ZEROS = ZERO_DIGITS.map Char.toNat := by decide +kernel

/-- The digits of two scripts are apart. -/
theorem zeros_apart : ∀ z ∈ ZEROS, ∀ z' ∈ ZEROS, z = z' ∨ z + 10 ≤ z' ∨ z' + 10 ≤ z := by decide +kernel

theorem digitVal_iff {c : Char} {d : Nat} : digitVal c = some d ↔ DigitIs c d := by
  unfold digitVal DigitIs
  have hz : (∃ z ∈ ZERO_DIGITS, c.toNat = z.toNat + d) ↔ ∃ z ∈ ZEROS, c.toNat = z + d := by
    rw [zeros_eq]
    simp
  rw [hz]
  cases h : ZEROS.find? fun z => z ≤ c.toNat && c.toNat ≤ z + 9 with
  | none =>
    simp only [reduceCtorEq, false_iff]
    rintro ⟨h1, z, hm, h2⟩
    have := List.find?_eq_none.1 h z hm
    simp only [Bool.and_eq_true, decide_eq_true_eq, not_and, not_le] at this
    omega
  | some z =>
    have hm := List.mem_of_find?_eq_some h
    have hp := List.find?_some h
    simp only [Bool.and_eq_true, decide_eq_true_eq] at hp
    simp only [Option.some.injEq]
    constructor
    · intro e
      exact ⟨by omega, z, hm, by omega⟩
    · rintro ⟨h1, z', hm', h2⟩
      have := zeros_apart z hm z' hm'
      omega

/-- What a digit is not: a sign, an underscore or white space. -/
theorem digitIs_ne {c : Char} {d : Nat} (h : DigitIs c d) :
    c ≠ '_' ∧ c ≠ '-' ∧ c ≠ '+' ∧ isSpace c = false := by
  have key : ∀ z ∈ ZERO_DIGITS, ∀ d < 10, z.toNat + d ≠ '_'.toNat ∧ z.toNat + d ≠ '-'.toNat ∧
      z.toNat + d ≠ '+'.toNat ∧ isSpace (Char.ofNat (z.toNat + d)) = false ∧
      (z.toNat + d).isValidChar := by decide +kernel
  obtain ⟨h1, z, hz, h2⟩ := h
  obtain ⟨k1, k2, k3, k4, k5⟩ := key z hz d h1
  rw [← h2] at k1 k2 k3 k4
  refine ⟨?_, ?_, ?_, ?_⟩
  · rintro rfl; exact k1 rfl
  · rintro rfl; exact k2 rfl
  · rintro rfl; exact k3 rfl
  · rwa [Char.ofNat_toNat] at k4

theorem pyDigits_more {acc : Nat} {c : Char} {d : Nat} (h : DigitIs c d) (s : Str) :
    pyDigits acc (c :: s) = pyDigits (10 * acc + d) s := by
  rw [pyDigits]
  · rw [digitVal_iff.2 h]
  · intro c1 s1 e; exact absurd e (digitIs_ne h).1

theorem pyDigits_spec {s : Str} {acc v : Nat} (h : pyDigits acc s = some v) {pre : Str}
    (hp : Digits pre acc) : Digits (pre ++ s) v := by
  induction acc, s using pyDigits.induct generalizing pre with
  | case1 acc => simp only [pyDigits, Option.some.injEq] at h; subst h; simpa using hp
  | case2 acc c s hc => simp [pyDigits, hc] at h
  | case3 acc c s d hd ih =>
    rw [pyDigits, hd] at h
    have := ih h (.under hp (digitVal_iff.1 hd))
    simpa using this
  | case4 acc c s hu hc =>
    rw [pyDigits, hc] at h
    · cases h
    · exact hu
  | case5 acc c s hu d hd ih =>
    rw [pyDigits, hd] at h
    · have := ih h (.more hp (digitVal_iff.1 hd))
      simpa using this
    · exact hu

theorem pyDigits_append {s : Str} {acc v : Nat} (h : pyDigits acc s = some v) (u : Str) :
    pyDigits acc (s ++ u) = pyDigits v u := by
  induction acc, s using pyDigits.induct with
  | case1 acc => simp only [pyDigits, Option.some.injEq] at h; subst h; rfl
  | case2 acc c s hc => simp [pyDigits, hc] at h
  | case3 acc c s d hd ih =>
    rw [pyDigits, hd] at h
    rw [List.cons_append, List.cons_append, pyDigits, hd]
    exact ih h
  | case4 acc c s hu hc =>
    rw [pyDigits, hc] at h
    · cases h
    · exact hu
  | case5 acc c s hu d hd ih =>
    rw [pyDigits, hd] at h
    · rw [List.cons_append, pyDigits_more (digitVal_iff.1 hd)]
      exact ih h
    · exact hu

theorem pyNat_iff {t : Str} {v : Nat} : pyNat t = some v ↔ Digits t v := by
  constructor
  · intro h
    cases t with
    | nil => cases h
    | cons c t =>
      rw [pyNat] at h
      cases hd : digitVal c with
      | none => rw [hd] at h; cases h
      | some d =>
        rw [hd] at h
        exact pyDigits_spec h (.one (digitVal_iff.1 hd))
  · intro h
    have key : ∀ {c : Char} {s u : Str} {v : Nat}, pyNat (c :: s) = some v →
        pyNat (c :: s ++ u) = pyDigits v u := by
      intro c s u v h
      rw [List.cons_append, pyNat]
      rw [pyNat] at h
      cases hd : digitVal c with
      | none => rw [hd] at h; cases h
      | some d =>
        rw [hd] at h
        exact pyDigits_append h u
    have ne : ∀ {s : Str} {v : Nat}, pyNat s = some v → ∃ c r, s = c :: r := by
      intro s v h
      cases s with
      | nil => cases h
      | cons c r => exact ⟨c, r, rfl⟩
    induction h with
    | one hd => rw [pyNat, digitVal_iff.2 hd]; rfl
    | more _ hd ih =>
      obtain ⟨c, r, rfl⟩ := ne ih
      rw [key ih, pyDigits_more hd, pyDigits]
    | under _ hd ih =>
      obtain ⟨c, r, rfl⟩ := ne ih
      rw [key ih, pyDigits, digitVal_iff.2 hd]
      rfl

theorem digits_trimmed {t : Str} {v : Nat} (h : Digits t v) :
    ∃ c s, t = c :: s ∧ (∃ v, DigitIs c v) ∧ ∃ d, t.getLast? = some d ∧ ∃ v, DigitIs d v := by
  induction h with
  | one hd => exact ⟨_, [], rfl, ⟨_, hd⟩, _, rfl, ⟨_, hd⟩⟩
  | more _ hd ih =>
    obtain ⟨c, s, rfl, h1, -⟩ := ih
    exact ⟨c, _, List.cons_append .., h1, _, List.getLast?_concat .., ⟨_, hd⟩⟩
  | @under s' c' v d _ hd ih =>
    obtain ⟨c, s, rfl, h1, -⟩ := ih
    refine ⟨c, _, List.cons_append .., h1, c', ?_, ⟨_, hd⟩⟩
    rw [show c :: s ++ ['_', c'] = (c :: s ++ ['_']) ++ [c'] by simp, List.getLast?_concat]

theorem intSpace_iff {c : Char} :
    intSpace c = true ↔ isSpace c = true ∧ c ∉ ['\x1c', '\x1d', '\x1e', '\x1f'] := by
  unfold intSpace
  rw [Bool.and_eq_true, Bool.not_eq_true', Bool.and_eq_false_iff, decide_eq_false_iff_not,
    decide_eq_false_iff_not]
  refine and_congr_right fun _ => ?_
  have e : ∀ n : Nat, ∀ d : Char, d.toNat = n → (c = d ↔ c.toNat = n) := by
    rintro n d rfl
    exact ⟨fun h => h ▸ rfl, fun h => Char.toNat_inj.1 h⟩
  simp only [List.mem_cons, List.not_mem_nil, or_false, e 28 '\x1c' rfl, e 29 '\x1d' rfl,
    e 30 '\x1e' rfl, e 31 '\x1f' rfl]
  omega

theorem intBlank_iff {s : Str} : IntBlank s ↔ ∀ c ∈ s, intSpace c = true := by
  simp only [intSpace_iff]
  exact ⟨fun h c hc => ⟨h.1 c hc, h.2 c hc⟩, fun h => ⟨fun c hc => (h c hc).1, fun c hc => (h c hc).2⟩⟩

theorem intStrip_of {a t b : Str} (ha : IntBlank a) (hb : IntBlank b) (ht : Trimmed t) (hne : t ≠ []) :
    intStrip (a ++ t ++ b) = t := by
  have key : ∀ c, isSpace c = false → intSpace c = false := by
    intro c hc
    unfold intSpace
    rw [hc]
    rfl
  rw [intBlank_iff] at ha hb
  unfold intStrip
  rw [List.append_assoc, dropWhile_append_all ha]
  have h1 : (t ++ b).dropWhile intSpace = t ++ b := by
    apply dropWhile_of_head
    intro c hc
    cases t with
    | nil => exact absurd rfl hne
    | cons x t => exact key c (ht.1 c hc)
  have h2 : t.reverse.dropWhile intSpace = t.reverse := by
    apply dropWhile_of_head
    intro c hc
    rw [List.head?_reverse] at hc
    exact key c (ht.2 c hc)
  rw [h1, List.reverse_append, dropWhile_append_all, h2, List.reverse_reverse]
  intro c hc
  exact hb c (List.mem_reverse.1 hc)

theorem intStrip_decomp (s : Str) : ∃ a b, IntBlank a ∧ IntBlank b ∧ s = a ++ intStrip s ++ b := by
  refine ⟨s.takeWhile intSpace, ((s.dropWhile intSpace).reverse.takeWhile intSpace).reverse,
    intBlank_iff.2 fun c hc => mem_takeWhile_imp hc,
    intBlank_iff.2 fun c hc => mem_takeWhile_imp (List.mem_reverse.1 hc), ?_⟩
  unfold intStrip
  rw [List.append_assoc, ← List.reverse_append, List.takeWhile_append_dropWhile, List.reverse_reverse,
    List.takeWhile_append_dropWhile]

theorem intText_strip {s : Str} {n : Int} : IntText s n ↔
    ∃ sign t v, intStrip s = sign ++ t ∧ Digits t v ∧
      ((sign = [] ∨ sign = ['+']) ∧ n = v ∨ sign = ['-'] ∧ n = -(v : Int)) := by
  constructor
  · rintro ⟨a, sign, t, b, v, ha, hb, rfl, hd, hs⟩
    refine ⟨sign, t, v, ?_, hd, hs⟩
    obtain ⟨c, u, rfl, ⟨_, hc⟩, d, hl, _, hd'⟩ := digits_trimmed hd
    apply intStrip_of ha hb _ (by simp)
    constructor
    · intro x hx
      rcases hs with ⟨rfl | rfl, -⟩ | ⟨rfl, -⟩ <;> simp at hx <;> subst hx
      · exact (digitIs_ne hc).2.2.2
      · decide
      · decide
    · intro x hx
      rw [List.getLast?_append, hl] at hx
      simp at hx
      subst hx
      exact (digitIs_ne hd').2.2.2
  · rintro ⟨sign, t, v, h, hd, hs⟩
    obtain ⟨a, b, ha, hb, he⟩ := intStrip_decomp s
    exact ⟨a, sign, t, b, v, ha, hb, by rw [← h]; exact he, hd, hs⟩

theorem pyInt_cases (s : Str) : (∃ n, pyInt s = .ok n) ∨ pyInt s = .error .valueError := by
  unfold pyInt
  split <;> split <;> simp

theorem pyInt_iff {s : Str} {n : Int} : pyInt s = .ok n ↔ IntText s n := by
  rw [intText_strip]
  unfold pyInt
  constructor
  · intro h
    split at h
    · rename_i t ht
      cases hn : pyNat t with
      | none => rw [hn] at h; cases h
      | some v =>
        rw [hn] at h
        cases h
        exact ⟨['-'], t, v, ht, pyNat_iff.1 hn, .inr ⟨rfl, rfl⟩⟩
    · rename_i t ht
      cases hn : pyNat t with
      | none => rw [hn] at h; cases h
      | some v =>
        rw [hn] at h
        cases h
        exact ⟨['+'], t, v, ht, pyNat_iff.1 hn, .inl ⟨.inr rfl, rfl⟩⟩
    · rename_i t h1 h2
      cases hn : pyNat (intStrip s) with
      | none => rw [hn] at h; cases h
      | some v =>
        rw [hn] at h
        cases h
        exact ⟨[], _, v, rfl, pyNat_iff.1 hn, .inl ⟨.inl rfl, rfl⟩⟩
  · rintro ⟨sign, t, v, ht, hd, hs⟩
    have hn := pyNat_iff.2 hd
    rw [ht]
    rcases hs with ⟨rfl | rfl, rfl⟩ | ⟨rfl, rfl⟩
    · obtain ⟨c, u, rfl, ⟨_, hc⟩, -⟩ := digits_trimmed hd
      obtain ⟨-, h1, h2, -⟩ := digitIs_ne hc
      rw [List.nil_append]
      split
      · rename_i e; simp only [List.cons.injEq] at e; exact absurd e.1 h1
      · rename_i e; simp only [List.cons.injEq] at e; exact absurd e.1 h2
      · rw [hn]
    · simp only [List.cons_append, List.nil_append]
      rw [hn]
    · simp only [List.cons_append, List.nil_append]
      rw [hn]

theorem pyInt_error {s : Str} (h : ∀ n, ¬ IntText s n) : pyInt s = .error .valueError := by
  rcases pyInt_cases s with ⟨n, hn⟩ | he
  · exact absurd (pyInt_iff.1 hn) (h n)
  · exact he

theorem intText_unique {s : Str} {n n' : Int} (h : IntText s n) (h' : IntText s n') : n = n' := by
  have := (pyInt_iff.2 h).symm.trans (pyInt_iff.2 h')
  exact Except.ok.inj this

theorem digits_lt {t : Str} {v : Nat} (h : Digits t v) : v < 10 ^ t.length := by
  induction h with
  | one hd => simpa using hd.1
  | more _ hd ih =>
    have := hd.1
    rw [List.length_append, List.length_singleton, Nat.pow_succ]
    omega
  | under _ hd ih =>
    have := hd.1
    rw [List.length_append, List.length_cons, List.length_singleton, Nat.pow_succ, Nat.pow_succ]
    have := Nat.one_le_pow
    omega

end H800
