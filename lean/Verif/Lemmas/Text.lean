import Verif.Spec.Cards

/-! `strip`, words, slices and lines of text. -/

namespace H800

open Spec

theorem dropWhile_append_all {α : Type} {p : α → Bool} {a s : List α} (h : ∀ c ∈ a, p c = true) :
    (a ++ s).dropWhile p = s.dropWhile p := by
  induction a with
  | nil => rfl
  | cons x a ih =>
    rw [List.cons_append, List.dropWhile_cons_of_pos (h x List.mem_cons_self)]
    exact ih fun c hc => h c (List.mem_cons_of_mem _ hc)

theorem dropWhile_of_head {α : Type} {p : α → Bool} {s : List α} (h : ∀ c ∈ s.head?, p c = false) :
    s.dropWhile p = s := by
  cases s with
  | nil => rfl
  | cons x s =>
    have := h x rfl
    rw [List.dropWhile_cons_of_neg]
    simp [this]

theorem blank_nil : Blank [] := fun _ h => by cases h

theorem blank_append {a b : Str} : Blank (a ++ b) ↔ Blank a ∧ Blank b := by
  unfold Blank
  simp only [List.mem_append]
  exact ⟨fun h => ⟨fun c hc => h c (Or.inl hc), fun c hc => h c (Or.inr hc)⟩,
    fun h c hc => hc.elim (h.1 c) (h.2 c)⟩

theorem dropWhile_blank {a : Str} (h : Blank a) : a.dropWhile isSpace = [] := by
  have := dropWhile_append_all (s := []) h
  simpa using this

theorem strip_of_decomp {a t b : Str} (ha : Blank a) (hb : Blank b) (ht : Trimmed t) :
    strip (a ++ t ++ b) = t := by
  unfold strip
  rw [List.append_assoc, dropWhile_append_all ha]
  by_cases e : t = []
  · subst e
    rw [List.nil_append, dropWhile_blank hb]
    rfl
  · have h1 : (t ++ b).dropWhile isSpace = t ++ b := by
      apply dropWhile_of_head
      intro c hc
      cases t with
      | nil => exact absurd rfl e
      | cons x t => exact ht.1 c hc
    have h2 : t.reverse.dropWhile isSpace = t.reverse := by
      apply dropWhile_of_head
      intro c hc
      rw [List.head?_reverse] at hc
      exact ht.2 c hc
    rw [h1, List.reverse_append, dropWhile_append_all, h2, List.reverse_reverse]
    intro c hc
    exact hb c (List.mem_reverse.1 hc)

theorem mem_takeWhile_imp {α : Type} {p : α → Bool} {s : List α} {c : α}
    (h : c ∈ s.takeWhile p) : p c = true := by
  induction s with
  | nil => cases h
  | cons x s ih =>
    by_cases hx : p x = true
    · rw [List.takeWhile_cons_of_pos hx] at h
      rcases List.mem_cons.1 h with rfl | h
      · exact hx
      · exact ih h
    · rw [List.takeWhile_cons_of_neg hx] at h; cases h

theorem takeWhile_all {α : Type} {p : α → Bool} {s : List α} (h : ∀ c ∈ s, p c = true) :
    s.takeWhile p = s := by
  have := List.takeWhile_append_of_pos (l₂ := []) h
  simpa using this

theorem takeWhile_blank (s : Str) : Blank (s.takeWhile isSpace) := by
  intro c hc
  exact mem_takeWhile_imp hc

theorem dropWhile_head (s : Str) : ∀ c ∈ (s.dropWhile isSpace).head?, isSpace c = false := by
  induction s with
  | nil => intro c hc; cases hc
  | cons x s ih =>
    intro c hc
    by_cases h : isSpace x = true
    · rw [List.dropWhile_cons_of_pos h] at hc; exact ih c hc
    · rw [List.dropWhile_cons_of_neg h] at hc
      cases hc
      simpa using h

theorem strip_stripped (s : Str) : Stripped s (strip s) := by
  have h1 : s = s.takeWhile isSpace ++ s.dropWhile isSpace := List.takeWhile_append_dropWhile.symm
  have hr := (List.takeWhile_append_dropWhile (p := isSpace) (l := (s.dropWhile isSpace).reverse)).symm
  have h2 : s.dropWhile isSpace = strip s ++ ((s.dropWhile isSpace).reverse.takeWhile isSpace).reverse := by
    unfold strip
    rw [← List.reverse_append, List.takeWhile_append_dropWhile, List.reverse_reverse]
  have hb : Blank ((s.dropWhile isSpace).reverse.takeWhile isSpace).reverse := fun c hc =>
    takeWhile_blank _ c (List.mem_reverse.1 hc)
  refine ⟨⟨?_, ?_⟩, s.takeWhile isSpace, _, takeWhile_blank s, hb, ?_⟩
  · intro c hc
    have hd := dropWhile_head s
    rw [h2] at hd
    apply hd
    cases hs : strip s with
    | nil => rw [hs] at hc; cases hc
    | cons x t => rw [hs] at hc; exact hc
  · intro c hc
    unfold strip at hc
    rw [List.getLast?_reverse] at hc
    exact dropWhile_head _ c hc
  · rw [List.append_assoc, ← h2]; exact h1

theorem stripped_iff {s t : Str} : Stripped s t ↔ strip s = t := by
  constructor
  · rintro ⟨ht, a, b, ha, hb, rfl⟩; exact strip_of_decomp ha hb ht
  · rintro rfl; exact strip_stripped s

theorem strip_nil_iff {s : Str} : strip s = [] ↔ Blank s := by
  constructor
  · intro h
    obtain ⟨-, a, b, ha, hb, e⟩ := strip_stripped s
    rw [h] at e
    rw [e, List.append_nil]
    exact blank_append.2 ⟨ha, hb⟩
  · intro h
    exact stripped_iff.1 ⟨⟨fun c hc => (by cases hc), fun c hc => (by cases hc)⟩, s, [], h, blank_nil,
      by simp⟩

theorem strip_append_blank {s b : Str} (hb : Blank b) : strip (s ++ b) = strip s := by
  obtain ⟨ht, a, b', ha, hb', e⟩ := strip_stripped s
  refine stripped_iff.1 ⟨ht, a, b' ++ b, ha, blank_append.2 ⟨hb', hb⟩, ?_⟩
  rw [← List.append_assoc, ← e]

theorem strip_strip (s : Str) : strip (strip s) = strip s :=
  stripped_iff.1 ⟨(strip_stripped s).1, [], [], blank_nil, blank_nil, by simp⟩

theorem strip_countP (s : Str) :
    (strip s).countP (fun c => !isSpace c) = s.countP (fun c => !isSpace c) := by
  obtain ⟨-, a, b, ha, hb, e⟩ := strip_stripped s
  have h0 : ∀ {a : Str}, Blank a → a.countP (fun c => !isSpace c) = 0 := by
    intro a ha
    rw [List.countP_eq_zero]
    intro c hc
    simp [ha c hc]
  conv_rhs => rw [e]
  rw [List.countP_append, List.countP_append, h0 ha, h0 hb]
  omega

theorem beforeFirst (c : Char) (s : Str) : BeforeFirst c s (splitFirst s c) := by
  unfold splitFirst
  refine ⟨?_, ?_⟩
  · intro h
    have := mem_takeWhile_imp h
    simp at this
  · induction s with
    | nil => left; rfl
    | cons x s ih =>
      by_cases h : x = c
      · subst h; right; exact ⟨s, by simp⟩
      · rw [List.takeWhile_cons_of_pos (by simpa using h)]
        rcases ih with ih | ⟨r, ih⟩
        · left; rw [← ih]
        · right; exact ⟨r, by rw [List.cons_append, ← ih]⟩

theorem beforeFirst_unique {c : Char} {s p : Str} (h : BeforeFirst c s p) : splitFirst s c = p := by
  obtain ⟨hn, h⟩ := h
  unfold splitFirst
  rcases h with rfl | ⟨r, rfl⟩
  · apply takeWhile_all
    intro x hx
    simp only [decide_eq_true_eq]
    rintro rfl; exact hn hx
  · rw [List.takeWhile_append_of_pos]
    · simp
    · intro x hx
      simp only [decide_eq_true_eq]
      rintro rfl; exact hn hx

theorem firstWord_ok {s w : Str} : firstWord s = .ok w ↔ Word1 s w := by
  have hd : s = s.takeWhile isSpace ++ s.dropWhile isSpace := List.takeWhile_append_dropWhile.symm
  have hd2 := (List.takeWhile_append_dropWhile (p := fun c => !isSpace c)
    (l := s.dropWhile isSpace)).symm
  constructor
  · intro h
    unfold firstWord at h
    have e : (s.dropWhile isSpace).takeWhile (fun c => !isSpace c) = w ∧ w ≠ [] := by
      split at h
      · cases h
      · rename_i hne
        cases h
        exact ⟨rfl, hne⟩
    obtain ⟨e, hne⟩ := e
    refine ⟨hne, ?_, s.takeWhile isSpace, (s.dropWhile isSpace).dropWhile (fun c => !isSpace c),
      takeWhile_blank s, ?_, ?_⟩
    · intro c hc
      rw [← e] at hc
      have := mem_takeWhile_imp hc
      simpa using this
    · rw [List.append_assoc, ← e, ← hd2]; exact hd
    · intro c hc
      have := List.head?_dropWhile_not (fun c => !isSpace c) (s.dropWhile isSpace)
      rw [Option.mem_def] at hc
      rw [hc] at this
      simpa using this
  · rintro ⟨hne, hw, a, r, ha, e, hr⟩
    have e1 : s.dropWhile isSpace = w ++ r := by
      rw [e, List.append_assoc, dropWhile_append_all ha]
      apply dropWhile_of_head
      intro c hc
      cases w with
      | nil => exact absurd rfl hne
      | cons x w =>
        cases hc
        exact hw _ List.mem_cons_self
    have e2 : (w ++ r).takeWhile (fun c => !isSpace c) = w := by
      rw [List.takeWhile_append_of_pos]
      · have : r.takeWhile (fun c => !isSpace c) = [] := by
          cases r with
          | nil => rfl
          | cons x r =>
            rw [List.takeWhile_cons_of_neg]
            simp [hr x rfl]
        rw [this, List.append_nil]
      · intro x hx; simp [hw x hx]
    unfold firstWord
    rw [e1, e2]
    cases w with
    | nil => exact absurd rfl hne
    | cons x w => rfl

theorem firstWord_error {s : Str} {e : PyErr} (h : firstWord s = .error e) :
    e = .indexError ∧ Blank s := by
  unfold firstWord at h
  split at h
  · rename_i h'
    cases h
    refine ⟨rfl, ?_⟩
    have hd := dropWhile_head s
    have : s.dropWhile isSpace = [] := by
      cases hs : s.dropWhile isSpace with
      | nil => rfl
      | cons x t =>
        rw [hs] at h' hd
        have := hd x rfl
        rw [List.takeWhile_cons_of_pos (by simp [this])] at h'
        cases h'
    rw [← List.takeWhile_append_dropWhile (p := isSpace) (l := s), this, List.append_nil]
    exact takeWhile_blank s
  · cases h

theorem startsWith_iff {s : Str} {c : Char} : startsWith s c = true ↔ s.head? = some c := by
  cases s with
  | nil => simp [startsWith]
  | cons x s => simp [startsWith]

end H800
