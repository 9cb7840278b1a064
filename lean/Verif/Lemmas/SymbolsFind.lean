import Verif.Lemmas.SymbolsSrc

/-! Lemmas about searching a symbol table. -/

namespace H800

open Spec

theorem mem_sortedKeys {ν : Type} {d : Dict Str ν} {k : Str} :
    k ∈ sortedKeys d ↔ ∃ v, dget d k = some v := by
  unfold sortedKeys
  rw [(pySortedStr_perm _).mem_iff, ← dget_isSome, Option.isSome_iff_exists]

theorem sortedKeys_increasing {ν : Type} {d : Dict Str ν} (h : (d.map (·.1)).Nodup) :
    Increasing (sortedKeys d) :=
  (pySortedStr_pairwise _).and ((pySortedStr_perm _).nodup_iff.2 h)

theorem foundKind_iff (t : Symtab) (symbol kind : Str) :
    foundKind t symbol kind = true ↔ HasKind t symbol kind := by
  unfold foundKind HasKind
  simp only [List.any_eq_true, mem_sortedKeys, recorded_iff, Option.isSome_iff_exists]
  constructor
  · rintro ⟨seg, -, sub, -, e, he⟩; exact ⟨seg, sub, e, he⟩
  · rintro ⟨seg, sub, e, he⟩
    obtain ⟨d3, h3, -⟩ := (dget_dat _ _ _ _).1 he
    obtain ⟨d2, h2, -⟩ := (dget_dat _ _ _ _).1 h3
    exact ⟨seg, ⟨d2, h2⟩, sub, ⟨d3, h3⟩, e, he⟩

theorem filter_increasing {l : List Str} (h : Increasing l) (p : Str → Bool) :
    Increasing (l.filter p) := List.Pairwise.sublist List.filter_sublist h

theorem increasing_sorted {l : List Str} (h : Increasing l) : Increasing (pySortedStr l) := by
  refine (pySortedStr_pairwise _).and ((pySortedStr_perm _).nodup_iff.2 ?_)
  exact List.Pairwise.imp (fun h => h.2) h

/-- A segment of a symbol has a simple definition. -/
def segHas (segs : Dict Str (Dict Str (Dict Str SymEntry))) (seg : Str) : Bool :=
  (sortedKeys (dat segs seg)).any fun subseg =>
    (dget (dat (dat segs seg) subseg) (py "simple")).isSome

theorem segHas_iff (t : Symtab) (symbol seg : Str) :
    segHas (dat t symbol) seg = true ↔ ∃ sub e, Recorded t symbol seg sub (py "simple") e := by
  unfold segHas
  simp only [List.any_eq_true, mem_sortedKeys, recorded_iff, Option.isSome_iff_exists]
  constructor
  · rintro ⟨sub, -, e, he⟩; exact ⟨sub, e, he⟩
  · rintro ⟨sub, e, he⟩
    obtain ⟨d3, h3, -⟩ := (dget_dat _ _ _ _).1 he
    exact ⟨sub, ⟨d3, h3⟩, e, he⟩

theorem absoluteSegs_false (segs : Dict Str (Dict Str (Dict Str SymEntry))) (l : List Str) :
    absoluteSegs segs false l = (l.any (segHas segs), l.any (segHas segs)) := by
  induction l with
  | nil => rfl
  | cons seg l ih =>
    rw [absoluteSegs, List.any_cons, ih]
    change (if segHas segs seg = true then _ else _) = _
    cases h : segHas segs seg <;> simp

theorem absoluteSegs_true (segs : Dict Str (Dict Str (Dict Str SymEntry))) (l : List Str) :
    absoluteSegs segs true l = (match l with | [] => false | seg :: _ => segHas segs seg, true) := by
  cases l with
  | nil => rfl
  | cons seg l =>
    rw [absoluteSegs]
    change (if segHas segs seg = true then _ else _) = _
    cases h : segHas segs seg <;> simp [h]

/-- The symbol has a simple definition in its first segment. -/
def firstHas (t : Symtab) (symbol : Str) : Bool :=
  match sortedKeys (dat t symbol) with
  | [] => false
  | seg :: _ => segHas (dat t symbol) seg

theorem any_segHas (t : Symtab) (symbol : Str) :
    (sortedKeys (dat t symbol)).any (segHas (dat t symbol)) = true ↔
      HasKind t symbol (py "simple") := by
  unfold HasKind
  simp only [List.any_eq_true, mem_sortedKeys, segHas_iff]
  constructor
  · rintro ⟨seg, -, h⟩; exact ⟨seg, h⟩
  · rintro ⟨seg, sub, e, h⟩
    refine ⟨seg, ?_, sub, e, h⟩
    rw [recorded_iff] at h
    obtain ⟨d3, h3, -⟩ := (dget_dat _ _ _ _).1 h
    obtain ⟨d2, h2, -⟩ := (dget_dat _ _ _ _).1 h3
    exact ⟨d2, h2⟩

theorem firstHas_kind {t : Symtab} {symbol : Str} (h : firstHas t symbol = true) :
    HasKind t symbol (py "simple") := by
  rw [← any_segHas]
  unfold firstHas at h
  split at h
  · cases h
  · rename_i seg l hl; rw [hl, List.any_cons, h]; rfl

theorem absoluteLoop_true (t : Symtab) (l : List Str) :
    absoluteLoop t true l = l.filter (firstHas t) := by
  induction l with
  | nil => rfl
  | cons x l ih =>
    rw [absoluteLoop]
    simp only [absoluteSegs_true]
    rw [ih, List.filter_cons]
    rfl

theorem absoluteLoop_false (t : Symtab) (x : Str) (l : List Str) :
    absoluteLoop t false (x :: l) =
      if (sortedKeys (dat t x)).any (segHas (dat t x)) then x :: absoluteLoop t true l
      else absoluteLoop t false l := by
  rw [absoluteLoop]
  simp only [absoluteSegs_false]
  cases (sortedKeys (dat t x)).any (segHas (dat t x)) <;> simp

theorem absoluteLoop_sublist (t : Symtab) (l : List Str) : (absoluteLoop t false l).Sublist l := by
  induction l with
  | nil => exact List.Sublist.refl _
  | cons x l ih =>
    rw [absoluteLoop_false]
    split
    · rw [absoluteLoop_true]; exact List.filter_sublist.cons_cons x
    · exact ih.cons x

theorem absoluteLoop_mem (t : Symtab) {l : List Str} (hl : Increasing l) (n : Str) :
    n ∈ absoluteLoop t false l ↔ n ∈ l ∧ HasKind t n (py "simple") ∧
      (firstHas t n = true ∨
        ∀ m ∈ l, strLe m n = true → m ≠ n → ¬ HasKind t m (py "simple")) := by
  induction l with
  | nil => simp [absoluteLoop]
  | cons x l ih =>
    obtain ⟨h1, h2⟩ := List.pairwise_cons.1 hl
    rw [absoluteLoop_false]
    have hanti : ∀ m ∈ l, strLe m x = true → m = x := fun m hm he =>
      strLe_antisymm _ _ he (h1 m hm).1
    by_cases hx : (sortedKeys (dat t x)).any (segHas (dat t x)) = true
    · rw [if_pos hx, absoluteLoop_true, List.mem_cons, List.mem_filter]
      have hxk := (any_segHas t x).1 hx
      constructor
      · rintro (rfl | ⟨hm, hf⟩)
        · refine ⟨List.mem_cons_self, hxk, Or.inr fun m hm hle hne => ?_⟩
          rcases List.mem_cons.1 hm with rfl | hm
          · exact absurd rfl hne
          · exact absurd (hanti m hm hle) hne
        · exact ⟨List.mem_cons_of_mem _ hm, firstHas_kind hf, Or.inl hf⟩
      · rintro ⟨hm, hk, hor⟩
        rcases List.mem_cons.1 hm with rfl | hm
        · exact Or.inl rfl
        · rcases hor with hf | hall
          · exact Or.inr ⟨hm, hf⟩
          · exact absurd hxk (hall x List.mem_cons_self (h1 n hm).1 (h1 n hm).2)
    · rw [if_neg hx, ih h2]
      have hxk : ¬ HasKind t x (py "simple") := fun h => hx ((any_segHas t x).2 h)
      constructor
      · rintro ⟨hm, hk, hor⟩
        refine ⟨List.mem_cons_of_mem _ hm, hk, hor.imp id fun hall m hm' hle hne => ?_⟩
        rcases List.mem_cons.1 hm' with rfl | hm'
        · exact hxk
        · exact hall m hm' hle hne
      · rintro ⟨hm, hk, hor⟩
        rcases List.mem_cons.1 hm with rfl | hm
        · exact absurd hk hxk
        · exact ⟨hm, hk, hor.imp id fun hall m hm' => hall m (List.mem_cons_of_mem _ hm')⟩

theorem absoluteLoop_kind (t : Symtab) (l : List Str) :
    ∀ n ∈ absoluteLoop t false l, HasKind t n (py "simple") := by
  induction l with
  | nil => intro n hn; cases hn
  | cons x l ih =>
    intro n hn
    rw [absoluteLoop_false] at hn
    split at hn
    · rename_i hx
      rw [absoluteLoop_true] at hn
      rcases List.mem_cons.1 hn with rfl | hn
      · exact (any_segHas t _).1 hx
      · exact firstHas_kind (List.mem_filter.1 hn).2
    · exact ih n hn

theorem firstHas_iff (t : Symtab) (symbol : Str) :
    firstHas t symbol = true ↔
      ∃ seg sub e, LeastSeg t symbol seg ∧ Recorded t symbol seg sub (py "simple") e := by
  unfold firstHas
  have hp := pySortedStr_pairwise ((dat t symbol).map (·.1))
  change (sortedKeys (dat t symbol)).Pairwise _ at hp
  have hm : ∀ k, k ∈ sortedKeys (dat t symbol) ↔ ∃ v, dget (dat t symbol) k = some v :=
    fun k => mem_sortedKeys
  have hleast : ∀ seg, LeastSeg t symbol seg ↔ seg ∈ sortedKeys (dat t symbol) ∧
      ∀ k ∈ sortedKeys (dat t symbol), strLe seg k = true := by
    intro seg
    unfold LeastSeg
    constructor
    · rintro ⟨segs, h1, ⟨v, h2⟩, h3⟩
      have hd : dat t symbol = segs := by simp [dat, h1]
      rw [hm]
      refine ⟨⟨v, by rw [hd]; exact h2⟩, fun k hk => ?_⟩
      obtain ⟨w, hw⟩ := (hm k).1 hk
      rw [hd] at hw
      exact h3 k w hw
    · rintro ⟨h1, h2⟩
      obtain ⟨v, hv⟩ := (hm seg).1 h1
      obtain ⟨segs, e1, e2⟩ := (dget_dat _ _ _ _).1 hv
      refine ⟨segs, e1, ⟨v, e2⟩, fun k w hw => h2 k ((hm k).2 ⟨w, ?_⟩)⟩
      exact (dget_dat _ _ _ _).2 ⟨segs, e1, hw⟩
  simp only [hleast]
  split
  · rename_i he
    simp only [Bool.false_eq_true, false_iff]
    rintro ⟨seg, sub, e, ⟨h1, -⟩, -⟩
    rw [he] at h1; cases h1
  · rename_i seg l he
    rw [he] at hp hm ⊢
    obtain ⟨h1, -⟩ := List.pairwise_cons.1 hp
    rw [segHas_iff]
    constructor
    · rintro ⟨sub, e, h⟩
      refine ⟨seg, sub, e, ⟨List.mem_cons_self, fun k hk => ?_⟩, h⟩
      rcases List.mem_cons.1 hk with rfl | hk
      · exact strLe_refl _
      · exact h1 k hk
    · rintro ⟨seg', sub, e, ⟨h2, h3⟩, h⟩
      have : seg' = seg := by
        rcases List.mem_cons.1 h2 with rfl | hk
        · rfl
        · exact strLe_antisymm _ _ (h3 seg List.mem_cons_self) (h1 seg' hk)
      subst this
      exact ⟨sub, e, h⟩

end H800
