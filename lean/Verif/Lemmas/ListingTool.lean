import Verif.Lemmas.Tools

/-! Lemmas about `listing.py`. -/

namespace H800

open Spec

theorem pySplit_ne_nil (c : Char) (s : Str) : pySplit c s ≠ [] := by
  induction s with
  | nil => simp [pySplit]
  | cons x s ih =>
    rw [pySplit]
    split
    · simp
    · split <;> simp

theorem join_split (c : Char) (s : Str) : joinWith c (pySplit c s) = s := by
  induction s with
  | nil => rfl
  | cons x s ih =>
    rw [pySplit]
    have hne := pySplit_ne_nil c s
    split
    · rename_i h
      cases hs : pySplit c s with
      | nil => exact absurd hs hne
      | cons a l => rw [joinWith, ← hs, ih, h]; rfl
    · cases hs : pySplit c s with
      | nil => exact absurd hs hne
      | cons a l =>
        simp only
        cases l with
        | nil =>
          rw [hs] at ih
          simp only [joinWith] at ih ⊢
          rw [ih]
        | cons b l =>
          rw [hs] at ih
          simp only [joinWith] at ih ⊢
          rw [← ih]; rfl

theorem pySplit_last {c : Char} {e : Str} (he : c ∉ e) (p : Str) :
    pySplit c (p ++ c :: e) = pySplit c p ++ [e] := by
  induction p with
  | nil => simp [pySplit, pySplit_none he]
  | cons x p ih =>
    rw [List.cons_append, pySplit, ih, pySplit]
    split
    · rfl
    · cases hs : pySplit c p with
      | nil => exact absurd hs (pySplit_ne_nil c p)
      | cons a l => rfl

theorem last_dot (c : Char) (s : Str) : c ∉ s ∨ ∃ p e, s = p ++ c :: e ∧ c ∉ e := by
  induction s with
  | nil => left; simp
  | cons x s ih =>
    rcases ih with h | ⟨p, e, rfl, he⟩
    · by_cases hx : c = x
      · right; exact ⟨[], s, by rw [hx]; rfl, h⟩
      · left
        rw [List.mem_cons]
        rintro (h1 | h1)
        · exact hx h1
        · exact h h1
    · right; exact ⟨x :: p, e, rfl, he⟩

theorem listfileOf_spec (file : Str) : ListingName file (listfileOf file) := by
  unfold listfileOf
  rcases last_dot '.' file with h | ⟨p, e, rfl, he⟩
  · refine ⟨[], ?_, Or.inl ⟨h, rfl⟩⟩
    rw [pySplit_none h]; rfl
  · refine ⟨p, ?_, Or.inr ⟨e, rfl, he⟩⟩
    rw [pySplit_last he, List.dropLast_concat, join_split]

theorem suffix_unique {c : Char} {p q e f : Str} (he : c ∉ e) (hf : c ∉ f)
    (h : p ++ c :: e = q ++ c :: f) : p = q ∧ e = f := by
  rcases List.append_eq_append_iff.1 h with ⟨a, h1, h2⟩ | ⟨a, h1, h2⟩
  · cases a with
    | nil => simp only [List.append_nil, List.nil_append, List.cons.injEq] at h1 h2
             exact ⟨h1.symm, h2.2⟩
    | cons x a =>
      simp only [List.cons_append, List.cons.injEq] at h2
      exact absurd (by rw [h2.2]; simp) he
  · cases a with
    | nil => simp only [List.append_nil, List.nil_append, List.cons.injEq] at h1 h2
             exact ⟨h1, h2.2.symm⟩
    | cons x a =>
      simp only [List.cons_append, List.cons.injEq] at h2
      exact absurd (by rw [h2.2]; simp) hf

theorem listingName_unique {file a b : Str} (ha : ListingName file a) (hb : ListingName file b) :
    a = b := by
  obtain ⟨p, rfl, h1⟩ := ha
  obtain ⟨q, rfl, h2⟩ := hb
  rcases h1 with ⟨h1, rfl⟩ | ⟨e, rfl, he⟩
  · rcases h2 with ⟨h2, rfl⟩ | ⟨f, rfl, hf⟩
    · rfl
    · exact absurd (by simp) h1
  · rcases h2 with ⟨h2, rfl⟩ | ⟨f, h, hf⟩
    · exact absurd (by simp) h2
    · rw [(suffix_unique he hf h).1]

theorem listingName_self (file : Str) : ListingName file file ↔ ∃ p, file = p ++ py ".lst" := by
  constructor
  · rintro ⟨p, h, -⟩; exact ⟨p, h⟩
  · rintro ⟨p, rfl⟩
    exact ⟨p, rfl, Or.inr ⟨py "lst", rfl, by decide⟩⟩

theorem padRight_leftIn (w : Nat) (s : Str) : LeftIn w s (padRight w s) := by
  refine ⟨w - s.length, rfl, fun h => ?_, fun h => by omega⟩
  simp [padRight]; omega

theorem pyStr_nat (n : Nat) : pyStr (n : Int) = numeral 10 n := by
  unfold pyStr
  have hs : ¬ ((n : Int) < 0) := by omega
  simp [hs]

theorem deckLine_spec (s : Src) : ∃ l, ListingLine s l ∧ deckLine (srcCard s) = l ++ ['\n'] := by
  refine ⟨padRight 64 s.file ++ ' ' :: padRight 6 (numeral 10 s.num) ++
    ' ' :: s.text.filter (· ≠ '\n'), ?_, ?_⟩
  · exact ⟨_, _, padRight_leftIn _ _, padRight_leftIn _ _, rfl⟩
  · have : ∀ t : Str, (t.filter (· ≠ '\n')).filter (· ≠ '\n') = t.filter (· ≠ '\n') := by
      intro t; rw [List.filter_filter]; simp
    unfold deckLine
    have h1 : (srcCard s).file = some s.file := rfl
    have h2 : (srcCard s).line = s.num := rfl
    have h3 : (srcCard s).text = s.text.filter (· ≠ '\n') := rfl
    rw [h1, h2, h3, pyStr_nat]
    unfold remove
    rw [this]
    simp

theorem deckLines_spec (out : List Src) :
    ∃ ls, List.Forall₂ ListingLine out ls ∧
      (out.map srcCard).flatMap deckLine = ls.flatMap fun l => l ++ ['\n'] := by
  induction out with
  | nil => exact ⟨[], .nil, rfl⟩
  | cons s out ih =>
    obtain ⟨l, h1, h2⟩ := deckLine_spec s
    obtain ⟨ls, h3, h4⟩ := ih
    exact ⟨l :: ls, .cons h1 h3, by rw [List.map_cons, List.flatMap_cons, List.flatMap_cons, h2, h4]⟩

end H800
