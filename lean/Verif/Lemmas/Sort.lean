import Verif.Py
import Mathlib.Data.List.Perm.Basic
import Mathlib.Data.List.Pairwise

/-! `sorted`: a permutation of its input, in order. -/

namespace H800

section
variable {α : Type} {le : α → α → Bool}

theorem insertBy_perm (x : α) (l : List α) : (insertBy le x l).Perm (x :: l) := by
  induction l with
  | nil => exact List.Perm.refl _
  | cons y l ih =>
    unfold insertBy
    split
    · exact List.Perm.refl _
    · exact (List.Perm.cons y ih).trans (List.Perm.swap x y l)

theorem pySorted_perm (l : List α) : (pySorted le l).Perm l := by
  induction l with
  | nil => exact List.Perm.refl _
  | cons x l ih => exact (insertBy_perm x _).trans (List.Perm.cons x ih)

theorem mem_pySorted {x : α} {l : List α} : x ∈ pySorted le l ↔ x ∈ l :=
  (pySorted_perm l).mem_iff

theorem insertBy_pairwise (htot : ∀ a b, le a b = true ∨ le b a = true)
    (htr : ∀ a b c, le a b = true → le b c = true → le a c = true) (x : α) (l : List α)
    (h : l.Pairwise (fun a b => le a b = true)) :
    (insertBy le x l).Pairwise (fun a b => le a b = true) := by
  induction l with
  | nil => simp [insertBy]
  | cons y l ih =>
    obtain ⟨h1, h2⟩ := List.pairwise_cons.1 h
    unfold insertBy
    by_cases hxy : le x y = true
    · rw [if_pos hxy]
      refine List.pairwise_cons.2 ⟨?_, h⟩
      intro z hz
      rcases List.mem_cons.1 hz with rfl | hz
      · exact hxy
      · exact htr _ _ _ hxy (h1 z hz)
    · rw [if_neg hxy]
      refine List.pairwise_cons.2 ⟨?_, ih h2⟩
      intro z hz
      rcases List.mem_cons.1 ((insertBy_perm x l).mem_iff.1 hz) with rfl | hz
      · exact (htot z y).resolve_left hxy
      · exact h1 z hz

theorem pySorted_pairwise (htot : ∀ a b, le a b = true ∨ le b a = true)
    (htr : ∀ a b c, le a b = true → le b c = true → le a c = true) (l : List α) :
    (pySorted le l).Pairwise (fun a b => le a b = true) := by
  induction l with
  | nil => simp [pySorted]
  | cons x l ih => exact insertBy_pairwise htot htr x _ ih

end

theorem pySortedInt_perm (l : List Int) : (pySortedInt l).Perm l := pySorted_perm l

theorem pySortedInt_pairwise (l : List Int) : (pySortedInt l).Pairwise (· ≤ ·) := by
  have h := pySorted_pairwise (le := fun a b : Int => decide (a ≤ b))
    (by intro a b; simp only [decide_eq_true_eq]; omega)
    (by intro a b c; simp only [decide_eq_true_eq]; omega) l
  simp only [decide_eq_true_eq] at h
  exact h

theorem pySortedInt_strict (l : List Int) (h : l.Nodup) : (pySortedInt l).Pairwise (· < ·) := by
  have h1 := pySortedInt_pairwise l
  have h2 : (pySortedInt l).Nodup := (pySortedInt_perm l).nodup_iff.2 h
  exact (h1.and h2).imp (fun h => Int.lt_iff_le_and_ne.2 h)

theorem strLe_refl (s : Str) : strLe s s = true := by
  induction s with
  | nil => rfl
  | cons a s ih => simp [strLe, ih]

theorem strLe_total (s t : Str) : strLe s t = true ∨ strLe t s = true := by
  induction s generalizing t with
  | nil => left; rfl
  | cons a s ih =>
    cases t with
    | nil => right; rfl
    | cons b t =>
      by_cases h : a = b
      · subst h; simpa [strLe] using ih t
      · simp only [strLe, h, Ne.symm h, if_false, decide_eq_true_eq]; omega

theorem char_toNat_inj {a b : Char} (h : a.toNat = b.toNat) : a = b :=
  Char.ext (UInt32.toNat_inj.1 h)

theorem strLe_trans (s t u : Str) (h1 : strLe s t = true) (h2 : strLe t u = true) :
    strLe s u = true := by
  induction s generalizing t u with
  | nil => rfl
  | cons a s ih =>
    cases t with
    | nil => simp [strLe] at h1
    | cons b t =>
      cases u with
      | nil => simp [strLe] at h2
      | cons c u =>
        by_cases hab : a = b
        · subst hab
          by_cases hac : a = c
          · subst hac
            simp only [strLe, if_true] at *
            exact ih t u h1 h2
          · simp only [strLe, hac, if_false, if_true, decide_eq_true_eq] at *
            exact h2
        · by_cases hbc : b = c
          · subst hbc
            simp only [strLe, hab, if_false, if_true, decide_eq_true_eq] at *
            exact h1
          · simp only [strLe, hab, hbc, if_false, decide_eq_true_eq] at h1 h2
            have hne : a.toNat ≠ b.toNat := fun h => hab (char_toNat_inj h)
            have hac : a ≠ c := by intro h; subst h; exact hne (by omega)
            simp only [strLe, hac, if_false, decide_eq_true_eq]
            omega

theorem strLe_antisymm (s t : Str) (h1 : strLe s t = true) (h2 : strLe t s = true) : s = t := by
  induction s generalizing t with
  | nil => cases t with
    | nil => rfl
    | cons b t => simp [strLe] at h2
  | cons a s ih =>
    cases t with
    | nil => simp [strLe] at h1
    | cons b t =>
      by_cases hab : a = b
      · subst hab
        simp only [strLe, if_true] at *
        rw [ih t h1 h2]
      · simp only [strLe, hab, Ne.symm hab, if_false, decide_eq_true_eq] at h1 h2
        exact absurd (char_toNat_inj (by omega)) hab

theorem pySortedStr_perm (l : List Str) : (pySortedStr l).Perm l := pySorted_perm l

theorem pySortedStr_pairwise (l : List Str) :
    (pySortedStr l).Pairwise (fun a b => strLe a b = true) :=
  pySorted_pairwise strLe_total strLe_trans l

/-- Two strictly increasing lists with the same members are equal. -/
theorem eq_of_strict {α : Type} {lt : α → α → Prop} (hirr : ∀ a, ¬ lt a a)
    (htr : ∀ a b c, lt a b → lt b c → lt a c) {l l' : List α} (h : l.Pairwise lt)
    (h' : l'.Pairwise lt) (hm : ∀ x, x ∈ l ↔ x ∈ l') : l = l' := by
  induction l generalizing l' with
  | nil =>
    cases l' with
    | nil => rfl
    | cons y l' => exact absurd ((hm y).2 (by simp)) (by simp)
  | cons x l ih =>
    cases l' with
    | nil => exact absurd ((hm x).1 (by simp)) (by simp)
    | cons y l' =>
      obtain ⟨h1, h2⟩ := List.pairwise_cons.1 h
      obtain ⟨h1', h2'⟩ := List.pairwise_cons.1 h'
      have hxy : x = y := by
        rcases List.mem_cons.1 ((hm x).1 (by simp)) with e | hx
        · exact e
        · rcases List.mem_cons.1 ((hm y).2 (by simp)) with e | hy
          · exact e.symm
          · exact absurd (htr _ _ _ (h1 y hy) (h1' x hx)) (hirr x)
      subst hxy
      congr 1
      apply ih h2 h2'
      intro z
      constructor
      · intro hz
        rcases List.mem_cons.1 ((hm z).1 (by simp [hz])) with e | h3
        · subst e; exact absurd (h1 z hz) (hirr z)
        · exact h3
      · intro hz
        rcases List.mem_cons.1 ((hm z).2 (by simp [hz])) with e | h3
        · subst e; exact absurd (h1' z hz) (hirr z)
        · exact h3

end H800
