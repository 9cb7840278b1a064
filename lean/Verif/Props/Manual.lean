import Verif.Lemmas.Dict
import Verif.Model.Opcodes
import Verif.Spec.Manual
import Mathlib.Tactic.Ring
import Mathlib.Tactic.Linarith
import Mathlib.Tactic.Positivity

/-!
Properties C134 to C136: the tables of the code against those of the manuals.
-/

namespace H800

open Spec

/-- C134: the character of every six-bit code is the one the high-speed printer column of Table I of
the manual gives. -/
def C134_statement : Prop :=
  ∀ c : Nat, c < 64 → ∃ x, dget CHARSET c = some (some x) ∧ tableI[c]? = some x

/-- C134 fails: code 44 (octal 54) is an asterisk in the manual and has no character in the code. -/
theorem C134_refuted : ¬ C134_statement := by
  intro h
  obtain ⟨x, hx, -⟩ := h 44 (by decide)
  have : dget CHARSET (44 : Nat) = some none := by decide +kernel
  rw [this] at hx
  cases hx

/-- C134, the part that holds: every other code has the character of the manual. -/
theorem C134_others_partial (c : Nat) (hc : c < 64) (hne : c ≠ 44) :
    ∃ x, dget CHARSET c = some (some x) ∧ tableI[c]? = some x := by
  have key : ∀ c : Fin 64, c.1 ≠ 44 →
      (match dget CHARSET c.1, tableI[c.1]? with
        | some (some x), some y => decide (x = y)
        | _, _ => false) = true := by decide +kernel
  have h := key ⟨c, hc⟩ hne
  simp only at h
  split at h
  · rename_i x y h1 h2
    exact ⟨x, h1, by rw [h2, of_decide_eq_true h]⟩
  · exact absurd h (by simp)

/-- C134, the exception: the manual has an asterisk, which the code gives to no code at all. -/
theorem C134_asterisk_partial : tableI[44]? = some '*' ∧ dget CHARSET 44 = some none ∧
    ∀ c, dget CHARSET c ≠ some (some '*') := by
  refine ⟨rfl, rfl, fun c h => ?_⟩
  have all : ∀ p ∈ CHARSET, p.2 ≠ some '*' := by decide +kernel
  exact all _ (dget_mem h) rfl

/-- C135: the valid instructions are exactly the documented mnemonics. -/
theorem C135_documented (m : Str) : m ∈ INSTRUCTIONS ↔ Documented m := by
  have h1 : ∀ m ∈ INSTRUCTIONS, m ∈ notesMnemonics ∨ m ∈ manualControl ∨ m ∈ manualConstants ∨
      m ∈ manualDirectors := by decide +kernel
  have h2 : ∀ m ∈ notesMnemonics ++ manualControl ++ manualConstants ++ manualDirectors,
      m ∈ INSTRUCTIONS := by decide +kernel
  refine ⟨h1 m, fun h => h2 m ?_⟩
  simp only [List.mem_append]
  rcases h with h | h | h | h <;> simp [h]

/-- One of each kind, and a word that is not a mnemonic. -/
example : Documented (py "BA") ∧ Documented (py "SETLOC") ∧ Documented (py "ALF") ∧
    Documented (py "SEGMENT") ∧ ¬ Documented (py "NOPE") := by
  decide +kernel

/-! ### C136: order -/

theorem charset_alnum : ∀ p ∈ CHARSET, ∀ x, p.2 = some x → Alnum x → 0 ≤ p.1 ∧ p.1 < 64 := by
  have : ∀ p ∈ CHARSET, 0 ≤ p.1 ∧ p.1 < 64 := by decide +kernel
  exact fun p hp _ _ _ => this p hp

theorem charset_lt : ∀ p ∈ CHARSET, ∀ q ∈ CHARSET, ∀ x, p.2 = some x → ∀ y, q.2 = some y →
    Alnum x → Alnum y → ((p.1 < q.1 ↔ x < y) ∧ (p.1 = q.1 ↔ x = y)) := by
  have key : (CHARSET.all fun p => CHARSET.all fun q =>
      match p.2, q.2 with
      | some x, some y => decide (Alnum x → Alnum y → ((p.1 < q.1 ↔ x < y) ∧ (p.1 = q.1 ↔ x = y)))
      | _, _ => true) = true := by decide +kernel
  intro p hp q hq x hx y hy
  have := List.all_eq_true.1 (List.all_eq_true.1 key p hp) q hq
  rw [hx, hy] at this
  exact of_decide_eq_true this

theorem packed_from (n : Int) (cs : List Int) :
    cs.foldl (fun n c => 64 * n + c) n = n * 64 ^ cs.length + packed cs := by
  unfold packed
  induction cs generalizing n with
  | nil => simp
  | cons x cs ih =>
    rw [List.foldl_cons, List.foldl_cons, ih, ih (64 * 0 + x), List.length_cons, pow_succ]
    ring

theorem packed_cons (c : Int) (cs : List Int) :
    packed (c :: cs) = c * 64 ^ cs.length + packed cs := by
  rw [packed, List.foldl_cons, packed_from]
  ring

theorem packed_range {cs : List Int} (h : ∀ c ∈ cs, 0 ≤ c ∧ c < 64) :
    0 ≤ packed cs ∧ packed cs < 64 ^ cs.length := by
  induction cs with
  | nil => simp [packed]
  | cons c cs ih =>
    obtain ⟨h1, h2⟩ := ih fun x hx => h x (List.mem_cons_of_mem _ hx)
    obtain ⟨h3, h4⟩ := h c List.mem_cons_self
    rw [packed_cons, List.length_cons, pow_succ]
    constructor
    · positivity
    · nlinarith

/-- The codes of a text of digits and capital letters. -/
def Encodes (cs : List Int) (s : Str) : Prop :=
  List.Forall₂ (fun c x => dget CHARSET c = some (some x) ∧ Alnum x) cs s

/-- C136: every digit and capital letter has exactly one code. -/
theorem C136_codes (x : Char) (hx : Alnum x) : ∃! c, dget CHARSET c = some (some x) := by
  have key : ∀ n : Fin 128, Alnum (Char.ofNat n.1) →
      (CHARSET.any fun p => dget CHARSET p.1 = some (some (Char.ofNat n.1))) = true := by
    decide +kernel
  have hn : x.toNat < 128 := by
    rcases hx with ⟨-, h⟩ | ⟨-, h⟩
    · have : x.toNat ≤ '9'.toNat := h
      have e : '9'.toNat = 57 := rfl
      omega
    · have : x.toNat ≤ 'Z'.toNat := h
      have e : 'Z'.toNat = 90 := rfl
      omega
  have hk := key ⟨x.toNat, hn⟩
  simp only [Char.ofNat_toNat] at hk
  obtain ⟨p, -, hp⟩ := List.any_eq_true.1 (hk hx)
  refine ⟨p.1, of_decide_eq_true hp, fun c hc => ?_⟩
  exact (charset_lt _ (dget_mem hc) _ (dget_mem (of_decide_eq_true hp)) x rfl x rfl hx hx).2.2 rfl

/-- C136: words of six-bit codes of digits and capital letters compare, as numbers, like the texts they
stand for in the dictionary. -/
theorem C136_order (cs ds : List Int) (s t : Str) (hs : Encodes cs s) (ht : Encodes ds t)
    (hl : s.length = t.length) :
    (packed cs < packed ds ↔ Before s t) ∧ (packed cs = packed ds ↔ s = t) := by
  induction hs generalizing ds t with
  | nil =>
    cases ht with
    | nil => simp [Before]
    | cons _ _ => simp at hl
  | @cons c x cs s hc hs ih =>
    cases ht with
    | nil => simp at hl
    | @cons d y ds t hd ht =>
      obtain ⟨i1, i2⟩ := ih ds t ht (by simpa using hl)
      have rng : ∀ {cs : List Int} {s : Str}, Encodes cs s → ∀ c ∈ cs, 0 ≤ c ∧ c < 64 := by
        intro cs s h
        induction h with
        | nil => simp
        | cons h1 _ ih =>
          intro c hc
          rcases List.mem_cons.1 hc with rfl | hc
          · exact charset_alnum _ (dget_mem h1.1) _ rfl h1.2
          · exact ih c hc
      have len : cs.length = ds.length := by
        rw [hs.length_eq, ht.length_eq]; simpa using hl
      obtain ⟨a1, a2⟩ := packed_range (rng hs)
      obtain ⟨b1, b2⟩ := packed_range (rng ht)
      rw [packed_cons, packed_cons, len, Before]
      rw [len] at a2
      obtain ⟨o1, o2⟩ := charset_lt _ (dget_mem hc.1) _ (dget_mem hd.1) x rfl y rfl hc.2 hd.2
      simp only at o1 o2
      rw [← o1, ← o2, List.cons.injEq, ← o2, ← i1, ← i2]
      generalize (64 : Int) ^ ds.length = P at *
      rcases lt_trichotomy c d with h | h | h
      · have : c * P + P ≤ d * P := by nlinarith
        constructor
        · constructor
          · intro _; exact Or.inl h
          · intro _; omega
        · constructor
          · intro e; omega
          · intro e; omega
      · subst h
        constructor
        · constructor
          · intro e; exact Or.inr ⟨rfl, by omega⟩
          · rintro (e | ⟨-, e⟩) <;> omega
        · constructor
          · intro e; exact ⟨rfl, by omega⟩
          · rintro ⟨-, e⟩; omega
      · have : d * P + P ≤ c * P := by nlinarith
        constructor
        · constructor
          · intro e; omega
          · rintro (e | ⟨e, -⟩) <;> omega
        · constructor
          · intro e; omega
          · rintro ⟨e, -⟩; omega

/-- Two words: `7A` comes before `A7`. -/
example : Encodes [7, 17] (py "7A") ∧ Encodes [17, 7] (py "A7") ∧ Before (py "7A") (py "A7") ∧
    packed [7, 17] = 465 ∧ packed [17, 7] = 1095 := by
  refine ⟨?_, ?_, Or.inl (by decide), rfl, rfl⟩ <;>
  · refine .cons ⟨rfl, by decide⟩ (.cons ⟨rfl, by decide⟩ .nil)

end H800
