import Verif.Props.GenArgs
import Verif.Lemmas.Reread
import Verif.Lemmas.Sort
import Verif.Spec.Text

/-!
C175: the functions on texts that the claims mention compute what is meant.
-/

namespace H800

open Spec

/-- C175: white space. -/
theorem C175_space (c : Char) : isSpace c = true ↔ c.toNat ∈ whiteSpace := by
  simp only [isSpace, whiteSpace, Bool.or_eq_true, Bool.and_eq_true, decide_eq_true_eq, List.mem_cons,
    List.not_mem_nil, or_false]
  omega

theorem readlines_linesOf (text : Str) : LinesOf text (readlines text) := by
  induction text with
  | nil => exact .nil
  | cons c s ih =>
    rw [readlines]
    by_cases hc : c = '\n'
    · rw [if_pos hc, hc]
      exact LinesOf.line (l := []) (by simp) ih
    · rw [if_neg hc]
      have hc' : ¬ '\n' = c := fun e => hc e.symm
      generalize readlines s = ls at ih
      cases ih with
      | nil => exact .last (by simp) (by simpa using hc')
      | last h1 h2 => exact .last (by simp) (by simp [hc', h2])
      | @line l t ls h1 h2 => exact LinesOf.line (l := c :: l) (by simp [hc', h1]) h2

theorem linesOf_readlines {text : Str} {ls : List Str} (h : LinesOf text ls) : readlines text = ls := by
  induction h with
  | nil => rfl
  | @last l h1 h2 =>
    induction l with
    | nil => exact absurd rfl h1
    | cons c l ih =>
      simp only [List.mem_cons, not_or] at h2
      rw [readlines, if_neg (fun e => h2.1 e.symm)]
      cases l with
      | nil => rfl
      | cons d l => rw [ih (by simp) h2.2]
  | line h1 h2 ih => rw [readlines_append h1, ih]

/-- C175: the lines of a file. -/
theorem C175_lines (text : Str) (ls : List Str) : readlines text = ls ↔ LinesOf text ls :=
  ⟨fun h => h ▸ readlines_linesOf text, linesOf_readlines⟩

/-- C175: the order of strings. -/
theorem C175_order (a b : Str) : strLe a b = true ↔ NotAfter a b := by
  induction a generalizing b with
  | nil => simp [strLe, NotAfter]
  | cons x a ih =>
    cases b with
    | nil =>
      simp only [strLe, NotAfter]
      constructor
      · intro h; cases h
      · rintro (⟨r, h⟩ | ⟨p, x, y, r, s, h1, h2, _⟩)
        · cases h
        · cases p <;> cases h2
    | cons y b =>
      rw [strLe]
      by_cases hxy : x = y
      · subst hxy
        rw [if_pos rfl, ih]
        constructor
        · rintro (⟨r, rfl⟩ | ⟨p, u, v, r, s, rfl, rfl, h⟩)
          · exact Or.inl ⟨r, rfl⟩
          · exact Or.inr ⟨x :: p, u, v, r, s, rfl, rfl, h⟩
        · rintro (⟨r, h⟩ | ⟨p, u, v, r, s, h1, h2, h⟩)
          · simp only [List.cons_append, List.cons.injEq, true_and] at h
            exact Or.inl ⟨r, h⟩
          · cases p with
            | nil =>
              simp only [List.nil_append, List.cons.injEq] at h1 h2
              obtain ⟨rfl, _⟩ := h1
              obtain ⟨rfl, _⟩ := h2
              exact absurd h (lt_irrefl _)
            | cons z p =>
              simp only [List.cons_append, List.cons.injEq] at h1 h2
              exact Or.inr ⟨p, u, v, r, s, h1.2, h2.2, h⟩
      · rw [if_neg hxy, decide_eq_true_eq]
        constructor
        · intro h
          refine Or.inr ⟨[], x, y, a, b, rfl, rfl, lt_of_le_of_ne h fun e => hxy (char_toNat_inj e)⟩
        · rintro (⟨r, h⟩ | ⟨p, u, v, r, s, h1, h2, h⟩)
          · simp only [List.cons_append, List.cons.injEq] at h
            exact absurd h.1.symm hxy
          · cases p with
            | nil =>
              simp only [List.nil_append, List.cons.injEq] at h1 h2
              rw [h1.1, h2.1]
              exact le_of_lt h
            | cons z p =>
              simp only [List.cons_append, List.cons.injEq] at h1 h2
              exact absurd (h1.1.trans h2.1.symm) hxy

/-- C175: `sorted` on strings. -/
theorem C175_sorted (l l' : List Str) : pySortedStr l = l' ↔ l'.Perm l ∧ l'.Pairwise NotAfter := by
  have key : ∀ m : List Str, m.Pairwise NotAfter ↔ m.Pairwise (fun a b => strLe a b = true) := fun m =>
    ⟨fun h => h.imp fun h => (C175_order _ _).2 h, fun h => h.imp fun h => (C175_order _ _).1 h⟩
  rw [key]
  constructor
  · rintro rfl
    exact ⟨pySortedStr_perm l, pySortedStr_pairwise l⟩
  · rintro ⟨h1, h2⟩
    exact ((pySortedStr_perm l).trans h1.symm).eq_of_pairwise
      (fun a b _ _ => strLe_antisymm a b) (pySortedStr_pairwise l) h2

theorem text_ofDigits_cons (d : Nat) (ds : List Nat) :
    ofDigits 10 (d :: ds) = d * 10 ^ ds.length + ofDigits 10 ds := by
  induction ds using List.reverseRecOn with
  | nil => simp [ofDigits]
  | append_singleton ds e ih =>
    rw [← List.cons_append, ofDigits_append, ofDigits_append, ih, List.length_append,
      List.length_singleton, pow_succ]
    ring

theorem decimal_zero_cons {t : Str} {n : Nat} (h : Decimal ('0' :: t) n) (ht : t ≠ []) :
    Decimal t n := by
  obtain ⟨_, h2, h3⟩ := h
  refine ⟨ht, fun c hc => h2 c (List.mem_cons_of_mem _ hc), ?_⟩
  rw [List.map_cons, text_ofDigits_cons] at h3
  simpa using h3

theorem decimal_head {c : Char} {t : Str} {n : Nat} (h : Decimal (c :: t) n) (hc : c ≠ '0') :
    10 ^ t.length ≤ n := by
  obtain ⟨_, h2, h3⟩ := h
  rw [List.map_cons, text_ofDigits_cons, List.length_map] at h3
  have h4 := h2 c List.mem_cons_self
  have h5 : c.toNat ≠ '0'.toNat := fun e => hc (char_toNat_inj e)
  have h6 : 1 ≤ c.toNat - '0'.toNat := by omega
  calc 10 ^ t.length = 1 * 10 ^ t.length := (one_mul _).symm
    _ ≤ (c.toNat - '0'.toNat) * 10 ^ t.length := Nat.mul_le_mul_right _ h6
    _ ≤ n := by omega

/-- C175: the numeral of a number. -/
theorem C175_numeral (n : Nat) (s : Str) : numeral 10 n = s ↔ PlainDecimal n s := by
  have hd := numeral_decimal n
  have hlen : ∀ t : Str, Decimal t n → (numeral 10 n).length ≤ t.length := fun t ht =>
    numeral_length (List.length_pos_iff.2 ht.1) (decimal_lt ht)
  constructor
  · rintro rfl
    refine ⟨hd, fun t ht => ?_⟩
    by_contra hne
    have := hlen t (decimal_zero_cons (ht ▸ hd) hne)
    rw [ht, List.length_cons] at this
    omega
  · rintro ⟨h1, h2⟩
    refine decimal_inj hd h1 (le_antisymm (hlen s h1) ?_)
    by_contra hlt
    obtain ⟨c, t, rfl⟩ : ∃ c t, s = c :: t := by
      cases s with
      | nil => exact absurd rfl h1.1
      | cons c t => exact ⟨c, t, rfl⟩
    rw [List.length_cons] at hlt
    have hpos : 0 < (numeral 10 n).length := List.length_pos_iff.2 hd.1
    have hc : c ≠ '0' := by
      rintro rfl
      rw [h2 t rfl, List.length_nil] at hlt
      omega
    have h3 := decimal_head h1 hc
    have h4 := decimal_lt hd
    have h5 : 10 ^ (numeral 10 n).length ≤ 10 ^ t.length :=
      Nat.pow_le_pow_right (by omega) (by omega)
    omega

/-- C175: `split` at a character. -/
theorem C175_split (c : Char) (s : Str) (ps : List Str) : pySplit c s = ps ↔ Parts c s ps := by
  constructor
  · rintro rfl
    induction hn : s.length using Nat.strong_induction_on generalizing s with
    | _ n ih =>
      obtain ⟨h1, h2⟩ := beforeFirst c s
      generalize splitFirst s c = p at *
      rcases h2 with rfl | ⟨r, rfl⟩
      · rw [pySplit_none h1]
        exact .last h1
      · rw [pySplit_append h1]
        refine .part h1 (ih r.length ?_ r rfl)
        rw [← hn, List.length_append, List.length_cons]
        omega
  · intro h
    induction h with
    | last h => exact pySplit_none h
    | part h _ ih => rw [pySplit_append h, ih]

/-- C175: `strip`: what remains neither begins nor ends with white space, and only white space is
missing. -/
theorem C175_strip (s t : Str) : strip s = t ↔
    (∀ c ∈ t.head?, c.toNat ∉ whiteSpace) ∧ (∀ c ∈ t.getLast?, c.toNat ∉ whiteSpace) ∧
      ∃ a b, (∀ c ∈ a ++ b, c.toNat ∈ whiteSpace) ∧ s = a ++ t ++ b := by
  have hs : ∀ c : Char, isSpace c = false ↔ c.toNat ∉ whiteSpace := fun c => by
    rw [← C175_space, Bool.not_eq_true]
  rw [← stripped_iff]
  simp only [Stripped, Trimmed, Blank, C175_space, hs, List.mem_append, or_imp, forall_and, and_assoc]

/-- C175: `split()[0]`, which fails if there is no word. -/
theorem C175_word (s : Str) :
    (∀ w, firstWord s = .ok w ↔ w ≠ [] ∧ (∀ c ∈ w, c.toNat ∉ whiteSpace) ∧
      ∃ a r, (∀ c ∈ a, c.toNat ∈ whiteSpace) ∧ s = a ++ w ++ r ∧
        ∀ c ∈ r.head?, c.toNat ∈ whiteSpace) ∧
    (firstWord s = .error .indexError ↔ ∀ c ∈ s, c.toNat ∈ whiteSpace) := by
  have hs : ∀ c : Char, isSpace c = false ↔ c.toNat ∉ whiteSpace := fun c => by
    rw [← C175_space, Bool.not_eq_true]
  refine ⟨fun w => ?_, ?_⟩
  · rw [firstWord_ok]
    simp only [Word1, Blank, C175_space, hs]
  · constructor
    · intro h c hc
      exact (C175_space c).1 ((firstWord_error h).2 c hc)
    · intro h
      cases e : firstWord s with
      | error x => rw [(firstWord_error e).1]
      | ok w =>
        obtain ⟨hne, hw, a, r, _, rfl, _⟩ := firstWord_ok.1 e
        obtain ⟨c, hc⟩ := List.exists_mem_of_ne_nil w hne
        exact absurd (h c (by simp [hc])) ((hs c).1 (hw c hc))

/-- The notions are not empty: a form feed is white space and a letter is not; a text of three lines,
the last one without newline; the empty string is before every other one, capitals are before small
letters; two parts of an empty and a full one. -/
example : (12 : Nat) ∈ whiteSpace ∧ 'A'.toNat ∉ whiteSpace ∧
    LinesOf (py "A\n\nB") [py "A\n", py "\n", py "B"] ∧ NotAfter [] (py "A") ∧
    NotAfter (py "AZ") (py "Aa") ∧ ¬ NotAfter (py "Aa") (py "AZ") ∧ PlainDecimal 120 (py "120") ∧
    ¬ PlainDecimal 7 (py "07") ∧ Parts ',' (py ",A") [[], py "A"] := by
  refine ⟨by decide, by decide, (C175_lines _ _).1 (by decide), (C175_order _ _).1 (by decide),
    (C175_order _ _).1 (by decide), fun h => ?_, (C175_numeral _ _).1 (by decide), fun h => ?_,
    (C175_split _ _ _).1 (by decide)⟩
  · exact absurd ((C175_order _ _).2 h) (by decide)
  · exact absurd (h.2 _ rfl) (by decide)

end H800
