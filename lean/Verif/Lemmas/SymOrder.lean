import Verif.Lemmas.Layout
import Verif.Props.SymTools

/-!
Lemmas about the order in which files are read.
-/

namespace H800

open Spec

/-! ### Whether the files can be read -/

theorem buildAll_decks {upper : Str → Str} {fs : FileSystem} {fuel : Nat} {files : List Str}
    {r r' : Symtab × List Nat × Nat}
    (h : files.foldlM (fun r f => do
      let b ← buildSymbolTable upper fs fuel f r.1
      return (b.symtab, r.2.1 ++ [b.errcount], r.2.2 + b.errcount)) r =
        Except.ok (ε := PyErr) r') :
    ∀ f ∈ files, ∃ cs, deckCards fs fuel f = .ok cs := by
  induction files generalizing r with
  | nil => simp
  | cons f files ih =>
    rw [List.foldlM_cons] at h
    cases hb : buildSymbolTable upper fs fuel f r.1 with
    | error e => rw [hb] at h; cases h
    | ok b =>
      rw [hb] at h
      intro g hg
      rcases List.mem_cons.1 hg with rfl | hg
      · unfold buildSymbolTable at hb
        cases hd : deckCards fs fuel g with
        | error e => rw [hd] at hb; cases hb
        | ok cs => exact ⟨cs, rfl⟩
      · exact ih h g hg

theorem buildAll_of_decks {upper : Str → Str} {fs : FileSystem} {fuel : Nat} {files : List Str}
    (hp : ∀ f ∈ files, PlainSeg (splitFirst f '.'))
    (h : ∀ f ∈ files, ∃ cs, deckCards fs fuel f = .ok cs) (r : Symtab × List Nat × Nat)
    (ht : Plain4 r.1) :
    ∃ r', files.foldlM (fun r f => do
      let b ← buildSymbolTable upper fs fuel f r.1
      return (b.symtab, r.2.1 ++ [b.errcount], r.2.2 + b.errcount)) r =
        Except.ok (ε := PyErr) r' := by
  induction files generalizing r with
  | nil => exact ⟨r, rfl⟩
  | cons f files ih =>
    obtain ⟨cs, hcs⟩ := h f List.mem_cons_self
    have hb : buildSymbolTable upper fs fuel f r.1 = .ok
        (cs.foldl (stepPure upper (splitFirst f '.')) ⟨r.1, py "1", 0, []⟩) := by
      unfold buildSymbolTable
      rw [hcs]
      exact (buildCards_plain (hp f List.mem_cons_self) (st := ⟨r.1, py "1", 0, []⟩) ht cs).1
    have hpl := (buildCards_plain (upper := upper) (hp f List.mem_cons_self)
      (st := ⟨r.1, py "1", 0, []⟩) ht cs).2
    rw [List.foldlM_cons, hb]
    exact ih (fun g hg => hp g (List.mem_cons_of_mem _ hg))
      (fun g hg => h g (List.mem_cons_of_mem _ hg)) _ hpl

/-- Whether the table can be built only depends on which files there are. -/
theorem buildAll_subset {upper : Str → Str} {fs : FileSystem} {fuel : Nat} {files files' : List Str}
    (hp : PlainFiles files') (hs : ∀ f ∈ files', f ∈ files) {r : Symtab × List Nat × Nat}
    (h : buildAll upper fs fuel files = .ok r) : ∃ r', buildAll upper fs fuel files' = .ok r' :=
  buildAll_of_decks (plainFiles_iff.1 hp) (fun f hf => buildAll_decks h f (hs f hf)) _ plain4_nil

/-! ### Files and their lines -/

open Classical in
/-- The lines of a file. -/
noncomputable def linesOf (fs : FileSystem) (f : Str) : List Src :=
  if h : ∃ out, Expands fs f out then Classical.choose h else []

theorem linesOf_eq {fs : FileSystem} {f : Str} {out : List Src} (h : Expands fs f out) :
    linesOf fs f = out := by
  unfold linesOf
  have hx : ∃ out, Expands fs f out := ⟨out, h⟩
  rw [dif_pos hx]
  exact expands_unique (Classical.choose_spec hx) h

theorem read_eq {fs : FileSystem} {files : List Str} {srcs : List (Str × List Src)}
    (h : Read fs files srcs) : srcs = files.map fun f => (f, linesOf fs f) := by
  obtain ⟨rfl, h⟩ := h
  rw [List.map_map]
  conv_lhs => rw [← List.map_id srcs]
  refine List.map_congr_left fun p hp => ?_
  simp [linesOf_eq (h p hp)]

theorem read_perm {fs : FileSystem} {files files' : List Str} {srcs srcs' : List (Str × List Src)}
    (hf : files.Perm files') (h : Read fs files srcs) (h' : Read fs files' srcs') :
    srcs.Perm srcs' := by
  rw [read_eq h, read_eq h']
  exact hf.map _

/-! ### The rows -/

theorem rowBefore_asymm {a b : Row} (h1 : Row.Before a b) (h2 : Row.Before b a) : False := by
  have key : ∀ x y : Str, StrLt x y → StrLt y x → False :=
    fun x y h h' => h.2 (strLe_antisymm x y h.1 h'.1)
  unfold Row.Before at h1 h2
  rcases h1 with h1 | ⟨e1, h1⟩
  · rcases h2 with h2 | ⟨e2, -⟩
    · exact key _ _ h1 h2
    · exact h1.2 e2.symm
  · rcases h2 with h2 | ⟨-, h2⟩
    · exact h2.2 e1.symm
    · rcases h1 with h1 | ⟨e1, h1⟩
      · rcases h2 with h2 | ⟨e2, -⟩
        · exact key _ _ h1 h2
        · exact h1.2 e2.symm
      · rcases h2 with h2 | ⟨-, h2⟩
        · exact h2.2 e1.symm
        · rcases h1 with h1 | ⟨e1, h1⟩
          · rcases h2 with h2 | ⟨e2, -⟩
            · exact key _ _ h1 h2
            · exact h1.2 e2.symm
          · rcases h2 with h2 | ⟨-, h2⟩
            · exact h2.2 e1.symm
            · exact key _ _ h1 h2

theorem rows_ext {a b : List Row} (ha : a.Pairwise Row.Before) (hb : b.Pairwise Row.Before)
    (h : ∀ r, r ∈ a ↔ r ∈ b) : a = b := by
  have nd : ∀ {l : List Row}, l.Pairwise Row.Before → l.Nodup := fun hl =>
    hl.imp fun h e => by subst e; exact rowBefore_asymm h h
  have hperm : a.Perm b := (List.perm_ext_iff_of_nodup (nd ha) (nd hb)).2 h
  exact hperm.eq_of_pairwise (fun x y _ _ h1 h2 => (rowBefore_asymm h1 h2).elim) ha hb

/-! ### Final definitions -/

/-- The files give different segments. -/
theorem finalDef_iff {upper : Str → Str} {srcs : List (Str × List Src)}
    (hd : srcs.Pairwise fun p q => splitFirst p.1 '.' ≠ splitFirst q.1 '.')
    (i : Nat) (s : Src) (tag tt seg sub kind : Str) :
    (∃ k, FinalDef upper srcs k i s tag tt seg sub kind) ↔
      ∃ p ∈ srcs, seg = splitFirst p.1 '.' ∧ DefinesAt upper p.2 i s tag tt sub kind ∧
        ∀ i' s' tt', i < i' → ¬ DefinesAt upper p.2 i' s' tag tt' sub kind := by
  constructor
  · rintro ⟨k, ⟨f, o, h1, h2, h3⟩, hl⟩
    refine ⟨(f, o), List.mem_of_getElem? h1, (beforeFirst_unique h2).symm, h3, ?_⟩
    intro i' s' tt' hlt hdef
    exact hl k i' s' tt' (Or.inr ⟨rfl, hlt⟩) ⟨f, o, h1, h2, hdef⟩
  · rintro ⟨p, hp, rfl, h1, h2⟩
    obtain ⟨k, hk⟩ := List.getElem?_of_mem hp
    refine ⟨k, ⟨p.1, p.2, hk, beforeFirst '.' p.1, h1⟩, ?_⟩
    rintro k' i' s' tt' hlt ⟨f, o, g1, g2, g3⟩
    rcases hlt with hlt | ⟨rfl, hlt⟩
    · obtain ⟨hk1, ek⟩ := List.getElem?_eq_some_iff.1 hk
      obtain ⟨hk2, ek'⟩ := List.getElem?_eq_some_iff.1 g1
      have := List.pairwise_iff_getElem.1 hd k k' hk1 hk2 hlt
      rw [ek, ek'] at this
      exact this ((beforeFirst_unique g2).symm)
    · rw [hk] at g1
      cases g1
      exact h2 i' s' tt' hlt g3

/-- Reading the same files again replaces every definition by itself. -/
theorem finalDef_again {upper : Str → Str} {srcs : List (Str × List Src)}
    (i : Nat) (s : Src) (tag tt seg sub kind : Str) :
    (∃ k, FinalDef upper (srcs ++ srcs) k i s tag tt seg sub kind) ↔
      ∃ k, FinalDef upper srcs k i s tag tt seg sub kind := by
  have hlen : ∀ {k i s tt}, DefinedIn upper srcs k i s tag tt seg sub kind → k < srcs.length := by
    rintro k i s tt ⟨f, o, h, -⟩
    exact (List.getElem?_eq_some_iff.1 h).1
  have hlo : ∀ {k i s tt}, k < srcs.length → (DefinedIn upper (srcs ++ srcs) k i s tag tt seg sub kind ↔
      DefinedIn upper srcs k i s tag tt seg sub kind) := by
    intro k i s tt hk
    unfold DefinedIn
    simp only [List.getElem?_append_left hk]
  have hhi : ∀ {k i s tt}, DefinedIn upper (srcs ++ srcs) (srcs.length + k) i s tag tt seg sub kind ↔
      DefinedIn upper srcs k i s tag tt seg sub kind := by
    intro k i s tt
    unfold DefinedIn
    simp only [List.getElem?_append_right (Nat.le_add_right _ _), Nat.add_sub_cancel_left]
  constructor
  · rintro ⟨k, h1, h2⟩
    by_cases hk : k < srcs.length
    · exact absurd (hhi.2 ((hlo hk).1 h1)) (h2 _ i s tt (Or.inl (by omega)))
    · obtain ⟨j, rfl⟩ := Nat.exists_eq_add_of_le (Nat.le_of_not_lt hk)
      refine ⟨j, hhi.1 h1, fun k' i' s' tt' hlt hd => ?_⟩
      exact h2 (srcs.length + k') i' s' tt' (by omega) (hhi.2 hd)
  · rintro ⟨k, h1, h2⟩
    refine ⟨srcs.length + k, hhi.2 h1, fun k' i' s' tt' hlt hd => ?_⟩
    obtain ⟨j, rfl⟩ := Nat.exists_eq_add_of_le (show srcs.length ≤ k' by omega)
    exact h2 j i' s' tt' (by omega) (hhi.1 hd)

end H800
