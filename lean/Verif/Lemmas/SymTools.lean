import Verif.Lemmas.Tools

/-! Lemmas about the tools that build symbol tables. -/

namespace H800

open Spec

/-! ### Building from several files -/

/-- What building from a file with these lines does, for a plain segment. -/
def buildPure (upper : Str → Str) (t : Symtab) (file : Str) (out : List Src) : BuildState :=
  (out.map srcCard).foldl (stepPure upper (splitFirst file '.')) ⟨t, py "1", 0, []⟩

theorem plainFiles_iff {files : List Str} :
    PlainFiles files ↔ ∀ f ∈ files, PlainSeg (splitFirst f '.') := by
  refine forall₂_congr fun f _ => ⟨fun h => h _ (beforeFirst '.' f), fun h seg hs => ?_⟩
  rw [← beforeFirst_unique hs]; exact h

theorem build_pure_ok {upper : Str → Str} {fs : FileSystem} {fuel : Nat} {file : Str} {t : Symtab}
    {b : BuildState} (hp : PlainSeg (splitFirst file '.')) (ht : Plain4 t)
    (h : buildSymbolTable upper fs fuel file t = .ok b) :
    ∃ out, Expands fs file out ∧ b = buildPure upper t file out ∧ Plain4 b.symtab := by
  obtain ⟨-, out, ho, hb⟩ := build_ok h
  obtain ⟨h1, h2⟩ := buildCards_plain (upper := upper) hp (st := ⟨t, py "1", 0, []⟩) ht
    (out.map srcCard)
  rw [h1] at hb
  cases hb
  exact ⟨out, ho, rfl, h2⟩

theorem build_pure_complete {upper : Str → Str} {fs : FileSystem} {file : Str}
    {out : List Src} (hf : file ≠ []) (hp : PlainSeg (splitFirst file '.'))
    (h : Expands fs file out) :
    ∃ n, ∀ t, Plain4 t → Plain4 (buildPure upper t file out).symtab ∧
      ∀ m, n ≤ m → buildSymbolTable upper fs m file t = .ok (buildPure upper t file out) := by
  obtain ⟨n, hn⟩ := deckCards_complete hf h
  refine ⟨n, fun t ht => ?_⟩
  obtain ⟨h1, h2⟩ := buildCards_plain (upper := upper) hp (st := ⟨t, py "1", 0, []⟩) ht
    (out.map srcCard)
  refine ⟨h2, fun m hm => ?_⟩
  unfold buildSymbolTable
  rw [hn m hm]
  exact h1

open Classical in
theorem buildPure_errs (upper : Str → Str) (t : Symtab) (file : Str) (out : List Src) :
    (buildPure upper t file out).errcount =
      (out.filter fun s => decide (InError upper s)).length := by
  unfold buildPure
  rw [(fold_errs upper _ _ _).1]
  simp only [Nat.zero_add]
  unfold errsOf
  induction out with
  | nil => rfl
  | cons s out ih =>
    rw [List.map_cons, List.filterMap_cons, List.filter_cons]
    have := action_err upper s
    cases ha : actionOf upper (srcCard s) with
    | skip =>
      have hn : ¬ InError upper s := fun h => by
        obtain ⟨e, l, tt, h⟩ := this.2 h; rw [ha] at h; cases h
      simpa [hn] using ih
    | def_ tag tt o =>
      have hn : ¬ InError upper s := fun h => by
        obtain ⟨e, l, tt, h⟩ := this.2 h; rw [ha] at h; cases h
      simpa [hn] using ih
    | err e l tt =>
      have hy : InError upper s := this.1 ⟨e, l, _, ha⟩
      simpa [hy] using ih

/-- What building from several files does. -/
def buildSrcs (upper : Str → Str) (t : Symtab) : List (Str × List Src) → Symtab
  | [] => t
  | p :: srcs => buildSrcs upper (buildPure upper t p.1 p.2).symtab srcs

open Classical in
theorem buildAll_ok_from {upper : Str → Str} {fs : FileSystem} {fuel : Nat} {files : List Str}
    (hp : ∀ f ∈ files, PlainSeg (splitFirst f '.')) {r r' : Symtab × List Nat × Nat}
    (ht : Plain4 r.1)
    (h : files.foldlM (fun r f => do
      let b ← buildSymbolTable upper fs fuel f r.1
      return (b.symtab, r.2.1 ++ [b.errcount], r.2.2 + b.errcount)) r = .ok r') :
    ∃ srcs, Read fs files srcs ∧ r'.1 = buildSrcs upper r.1 srcs ∧ Plain4 r'.1 ∧
      r'.2.1 = r.2.1 ++ srcs.map (fun p => (p.2.filter fun s => decide (InError upper s)).length) ∧
      r'.2.2 = r.2.2 +
        ((srcs.flatMap (·.2)).filter fun s => decide (InError upper s)).length := by
  induction files generalizing r with
  | nil =>
    cases h
    exact ⟨[], ⟨rfl, by simp⟩, rfl, ht, by simp, by simp⟩
  | cons f files ih =>
    rw [List.foldlM_cons] at h
    cases hb : buildSymbolTable upper fs fuel f r.1 with
    | error e => rw [hb] at h; cases h
    | ok b =>
      rw [hb] at h
      obtain ⟨out, ho, e, hpl⟩ := build_pure_ok (hp f List.mem_cons_self) ht hb
      obtain ⟨srcs, ⟨h1, h2⟩, h3, h4, h5, h6⟩ :=
        ih (r := (b.symtab, r.2.1 ++ [b.errcount], r.2.2 + b.errcount))
          (fun g hg => hp g (List.mem_cons_of_mem _ hg)) hpl h
      have he := buildPure_errs upper r.1 f out
      rw [← e] at he
      refine ⟨(f, out) :: srcs, ⟨by rw [List.map_cons, h1], ?_⟩, ?_, h4, ?_, ?_⟩
      · intro p hp
        rcases List.mem_cons.1 hp with rfl | hp
        · exact ho
        · exact h2 p hp
      · rw [h3, e]; rfl
      · rw [h5, he]; simp
      · rw [h6, he]; simp [List.flatMap_cons, Nat.add_assoc]

theorem buildAll_complete_from {upper : Str → Str} {fs : FileSystem}
    {srcs : List (Str × List Src)} (hne : ∀ p ∈ srcs, p.1 ≠ [])
    (hp : ∀ p ∈ srcs, PlainSeg (splitFirst p.1 '.')) (h : ∀ p ∈ srcs, Expands fs p.1 p.2) :
    ∃ n, ∀ r : Symtab × List Nat × Nat, Plain4 r.1 → ∃ r', ∀ m, n ≤ m →
      (srcs.map (·.1)).foldlM (fun r f => do
        let b ← buildSymbolTable upper fs m f r.1
        return (b.symtab, r.2.1 ++ [b.errcount], r.2.2 + b.errcount)) r =
          Except.ok (ε := PyErr) r' := by
  induction srcs with
  | nil => exact ⟨0, fun r _ => ⟨r, fun m _ => rfl⟩⟩
  | cons p srcs ih =>
    obtain ⟨n1, hn1⟩ := build_pure_complete (upper := upper) (hne p List.mem_cons_self)
      (hp p List.mem_cons_self) (h p List.mem_cons_self)
    obtain ⟨n2, hn2⟩ := ih (fun q hq => hne q (List.mem_cons_of_mem _ hq))
      (fun q hq => hp q (List.mem_cons_of_mem _ hq)) (fun q hq => h q (List.mem_cons_of_mem _ hq))
    refine ⟨max n1 n2, fun r hr => ?_⟩
    obtain ⟨k1, k2⟩ := hn1 r.1 hr
    obtain ⟨r', hr'⟩ := hn2 ((buildPure upper r.1 p.1 p.2).symtab,
      r.2.1 ++ [(buildPure upper r.1 p.1 p.2).errcount],
      r.2.2 + (buildPure upper r.1 p.1 p.2).errcount) k1
    refine ⟨r', fun m hm => ?_⟩
    rw [List.map_cons, List.foldlM_cons, k2 m (by omega)]
    exact hr' m (by omega)

/-! ### What the table has -/

theorem buildPure_recorded (upper : Str → Str) (t : Symtab) (file : Str) (out : List Src)
    (hp : PlainSeg (splitFirst file '.')) (ht : Plain4 t) (tag seg sub kind : Str) (e : SymEntry) :
    lookup4 (buildPure upper t file out).symtab tag seg sub kind = some e ↔
      (∃ i s tt, seg = splitFirst file '.' ∧ DefinesAt upper out i s tag tt sub kind ∧
        (∀ i' s' tt', i < i' → ¬ DefinesAt upper out i' s' tag tt' sub kind) ∧
        e = entryOf (srcCard s) tt) ∨
      (lookup4 t tag seg sub kind = some e ∧
        ¬ (seg = splitFirst file '.' ∧ ∃ i s tt, DefinesAt upper out i s tag tt sub kind)) := by
  have hb := (buildCards_plain (upper := upper) hp (st := ⟨t, py "1", 0, []⟩) ht
    (out.map srcCard)).1
  obtain ⟨hs1, hs2⟩ := buildCards_sound hb tag seg sub kind
  by_cases hd : seg = splitFirst file '.' ∧ ∃ i s tt, DefinesAt upper out i s tag tt sub kind
  · obtain ⟨rfl, i, s, tt, hdef⟩ := hd
    obtain ⟨j, ⟨s', tt', hj⟩, hlast⟩ := last_index
      (P := fun j => ∃ s' tt', DefinesAt upper out j s' tag tt' sub kind) (n := out.length)
      ⟨s, tt, hdef⟩ (by
        rintro k ⟨s', tt', h, -⟩
        exact (List.getElem?_eq_some_iff.1 h).1)
    have hl := fold_last upper (splitFirst file '.') tag sub kind (out.map srcCard)
      ⟨t, py "1", 0, []⟩ j (entryOf (srcCard s') tt')
      ((defAt_iff _ _ _ _ _ _ _).2 ⟨s', tt', hj, rfl⟩) (by
        intro k e hk h
        obtain ⟨s'', tt, h, -⟩ := (defAt_iff _ _ _ _ _ _ _).1 h
        exact hlast k hk ⟨s'', tt, h⟩)
    have huniq : ∀ i1 s1 tt1, DefinesAt upper out i1 s1 tag tt1 sub kind →
        (∀ i' s' tt', i1 < i' → ¬ DefinesAt upper out i' s' tag tt' sub kind) →
        entryOf (srcCard s1) tt1 = entryOf (srcCard s') tt' := by
      intro i1 s1 tt1 h1 h2
      have : i1 = j := by
        rcases lt_trichotomy i1 j with h | h | h
        · exact absurd hj (h2 j s' tt' h)
        · exact h
        · exact absurd ⟨s1, tt1, h1⟩ (hlast i1 h)
      subst this
      have a := (defAt_iff upper out i1 tag sub kind _).2 ⟨s1, tt1, h1, rfl⟩
      have b := (defAt_iff upper out i1 tag sub kind _).2 ⟨s', tt', hj, rfl⟩
      rw [a] at b
      simpa using b
    unfold buildPure
    rw [hl]
    constructor
    · intro he
      cases he
      exact Or.inl ⟨j, s', tt', rfl, hj, fun i' s'' tt'' h hd => hlast i' h ⟨s'', tt'', hd⟩, rfl⟩
    · rintro (⟨i1, s1, tt1, -, h1, h2, rfl⟩ | ⟨-, hn⟩)
      · rw [huniq i1 s1 tt1 h1 h2]
      · exact absurd ⟨rfl, i, s, tt, hdef⟩ hn
  · have hback : ∀ e', lookup4 (buildPure upper t file out).symtab tag seg sub kind = some e' →
        lookup4 t tag seg sub kind = some e' := by
      intro e' he'
      rcases hs2 e' he' with h | ⟨h1, i, h2⟩
      · exact h
      · obtain ⟨s, tt, h, -⟩ := (defAt_iff _ _ _ _ _ _ _).1 h2
        exact absurd ⟨h1, i, s, tt, h⟩ hd
    constructor
    · intro he
      exact Or.inr ⟨hback e he, hd⟩
    · rintro (⟨i, s, tt, h1, h2, -⟩ | ⟨he, -⟩)
      · exact absurd ⟨h1, i, s, tt, h2⟩ hd
      · obtain ⟨e', he'⟩ := Option.isSome_iff_exists.1 (hs1 (by rw [he]; rfl))
        have := hback e' he'
        rw [he] at this
        cases this
        exact he'

theorem definedIn_zero {upper : Str → Str} {file : Str} {out : List Src}
    {srcs : List (Str × List Src)} {i : Nat} {s : Src} {tag tt seg sub kind : Str} :
    DefinedIn upper ((file, out) :: srcs) 0 i s tag tt seg sub kind ↔
      seg = splitFirst file '.' ∧ DefinesAt upper out i s tag tt sub kind := by
  constructor
  · rintro ⟨f, o, h, h1, h2⟩
    simp only [List.getElem?_cons_zero, Option.some.injEq, Prod.mk.injEq] at h
    obtain ⟨rfl, rfl⟩ := h
    exact ⟨(beforeFirst_unique h1).symm, h2⟩
  · rintro ⟨rfl, h⟩
    exact ⟨file, out, rfl, beforeFirst '.' file, h⟩

theorem definedIn_succ {upper : Str → Str} {p : Str × List Src}
    {srcs : List (Str × List Src)} {k i : Nat} {s : Src} {tag tt seg sub kind : Str} :
    DefinedIn upper (p :: srcs) (k + 1) i s tag tt seg sub kind ↔
      DefinedIn upper srcs k i s tag tt seg sub kind := by
  unfold DefinedIn
  simp only [List.getElem?_cons_succ]

/-- The table after several files: the last definition, or what was there. -/
theorem buildSrcs_recorded (upper : Str → Str) (srcs : List (Str × List Src)) (t : Symtab)
    (hp : ∀ p ∈ srcs, PlainSeg (splitFirst p.1 '.')) (ht : Plain4 t)
    (tag seg sub kind : Str) (e : SymEntry) :
    lookup4 (buildSrcs upper t srcs) tag seg sub kind = some e ↔
      (∃ k i s tt, FinalDef upper srcs k i s tag tt seg sub kind ∧ e = entryOf (srcCard s) tt) ∨
      (lookup4 t tag seg sub kind = some e ∧
        ∀ k i s tt, ¬ DefinedIn upper srcs k i s tag tt seg sub kind) := by
  induction srcs generalizing t with
  | nil => simp [buildSrcs, FinalDef, DefinedIn]
  | cons p srcs ih =>
    obtain ⟨file, out⟩ := p
    have hp0 := hp (file, out) List.mem_cons_self
    have hpl : Plain4 (buildPure upper t file out).symtab :=
      (buildCards_plain (upper := upper) hp0 (st := ⟨t, py "1", 0, []⟩) ht (out.map srcCard)).2
    simp only [buildSrcs]
    rw [ih _ (fun q hq => hp q (List.mem_cons_of_mem _ hq)) hpl,
      buildPure_recorded upper t file out hp0 ht]
    constructor
    · rintro (⟨k, i, s, tt, ⟨h1, h2⟩, rfl⟩ |
        ⟨⟨i, s, tt, h1, h2, h3, rfl⟩ | ⟨h1, h2⟩, hno⟩)
      · left
        refine ⟨k + 1, i, s, tt, ⟨definedIn_succ.2 h1, ?_⟩, rfl⟩
        intro k' i' s' tt' hlt hd
        cases k' with
        | zero => omega
        | succ k' => exact h2 k' i' s' tt' (by omega) (definedIn_succ.1 hd)
      · left
        refine ⟨0, i, s, tt, ⟨definedIn_zero.2 ⟨h1, h2⟩, ?_⟩, rfl⟩
        intro k' i' s' tt' hlt hd
        cases k' with
        | zero => exact h3 i' s' tt' (by omega) (definedIn_zero.1 hd).2
        | succ k' => exact hno k' i' s' tt' (definedIn_succ.1 hd)
      · right
        refine ⟨h1, fun k i s tt hd => ?_⟩
        cases k with
        | zero => obtain ⟨a, b⟩ := definedIn_zero.1 hd; exact h2 ⟨a, i, s, tt, b⟩
        | succ k => exact hno k i s tt (definedIn_succ.1 hd)
    · rintro (⟨k, i, s, tt, ⟨h1, h2⟩, rfl⟩ | ⟨h1, h2⟩)
      · cases k with
        | zero =>
          right
          obtain ⟨a, b⟩ := definedIn_zero.1 h1
          refine ⟨Or.inl ⟨i, s, tt, a, b, fun i' s' tt' hlt hd => ?_, rfl⟩, fun k i' s' tt' hd => ?_⟩
          · exact h2 0 i' s' tt' (Or.inr ⟨rfl, hlt⟩) (definedIn_zero.2 ⟨a, hd⟩)
          · exact h2 (k + 1) i' s' tt' (Or.inl (by omega)) (definedIn_succ.2 hd)
        | succ k =>
          left
          refine ⟨k, i, s, tt, ⟨definedIn_succ.1 h1, fun k' i' s' tt' hlt hd => ?_⟩, rfl⟩
          exact h2 (k' + 1) i' s' tt' (by omega) (definedIn_succ.2 hd)
      · right
        refine ⟨Or.inr ⟨h1, ?_⟩, fun k i s tt hd => h2 (k + 1) i s tt (definedIn_succ.2 hd)⟩
        rintro ⟨a, i, s, tt, b⟩
        exact h2 0 i s tt (definedIn_zero.2 ⟨a, b⟩)

/-- A symbol has a definition in the table when it has one in the files. -/
theorem buildSrcs_has (upper : Str → Str) (srcs : List (Str × List Src))
    (hp : ∀ p ∈ srcs, PlainSeg (splitFirst p.1 '.')) (tag kind : Str) :
    HasKind (buildSrcs upper [] srcs) tag kind ↔
      ∃ k i s tt seg sub, DefinedIn upper srcs k i s tag tt seg sub kind := by
  have hpl : Plain4 ([] : Symtab) := fun tag => ⟨rfl, rfl⟩
  unfold HasKind
  constructor
  · rintro ⟨seg, sub, e, h⟩
    rw [recorded_iff, buildSrcs_recorded upper srcs [] hp hpl] at h
    rcases h with ⟨k, i, s, tt, h, -⟩ | ⟨h, -⟩
    · exact ⟨k, i, s, tt, seg, sub, h.1⟩
    · cases h
  · rintro ⟨k, i, s, tt, seg, sub, h⟩
    have hlt : ∀ k i s tt, DefinedIn upper srcs k i s tag tt seg sub kind → k < srcs.length := by
      rintro k i s tt ⟨f, o, h, -⟩
      exact (List.getElem?_eq_some_iff.1 h).1
    obtain ⟨k1, ⟨i0, s0, tt0, h0⟩, hk1⟩ := last_index
      (P := fun k => ∃ i s tt, DefinedIn upper srcs k i s tag tt seg sub kind)
      (n := srcs.length) ⟨i, s, tt, h⟩ (by rintro k ⟨i, s, tt, h⟩; exact hlt k i s tt h)
    obtain ⟨f, o, hfo, -⟩ := id h0
    obtain ⟨i1, ⟨s1, tt1, h1⟩, hi1⟩ := last_index
      (P := fun i => ∃ s tt, DefinedIn upper srcs k1 i s tag tt seg sub kind)
      (n := o.length) ⟨s0, tt0, h0⟩ (by
        rintro j ⟨s, tt, f', o', hfo', -, hd, -⟩
        rw [hfo] at hfo'
        cases hfo'
        exact (List.getElem?_eq_some_iff.1 hd).1)
    refine ⟨seg, sub, entryOf (srcCard s1) tt1, ?_⟩
    rw [recorded_iff, buildSrcs_recorded upper srcs [] hp hpl]
    refine Or.inl ⟨k1, i1, s1, tt1, ⟨h1, ?_⟩, rfl⟩
    rintro k' i' s' tt' (hlt | ⟨rfl, hlt⟩) hd
    · exact hk1 k' hlt ⟨i', s', tt', hd⟩
    · exact hi1 i' hlt ⟨s', tt', hd⟩

/-! ### The dicts of a table -/

/-- The same as `Dicts`. -/
def Dicts4 (t : Symtab) : Prop :=
  (t.map (·.1)).Nodup ∧ ∀ tag, ((dat t tag).map (·.1)).Nodup ∧
    ∀ seg, ((dat (dat t tag) seg).map (·.1)).Nodup ∧
      ∀ sub, ((dat (dat (dat t tag) seg) sub).map (·.1)).Nodup

theorem dicts_iff (t : Symtab) : Dicts t ↔ Dicts4 t := by
  unfold Dicts Dicts4
  have hdat : ∀ {ν : Type} (d : Dict Str (Dict Str ν)) (P : Dict Str ν → Prop), P [] →
      ((∀ k v, dget d k = some v → P v) ↔ ∀ k, P (dat d k)) := by
    intro ν d P h0
    constructor
    · intro h k
      unfold dat
      cases hk : dget d k with
      | none => exact h0
      | some v => exact h k v hk
    · intro h k v hk
      have := h k
      unfold dat at this
      rw [hk] at this
      exact this
  refine and_congr Iff.rfl ?_
  have e3 : ∀ d : Dict Str (Dict Str SymEntry),
      (∀ sub kinds, dget d sub = some kinds → (kinds.map (·.1)).Nodup) ↔
        ∀ sub, ((dat d sub).map (·.1)).Nodup :=
    fun d => hdat d (fun v => (v.map (·.1)).Nodup) List.nodup_nil
  have e2 : ∀ d : Dict Str (Dict Str (Dict Str SymEntry)),
      (∀ seg subs, dget d seg = some subs → (subs.map (·.1)).Nodup ∧
        ∀ sub kinds, dget subs sub = some kinds → (kinds.map (·.1)).Nodup) ↔
      ∀ seg, ((dat d seg).map (·.1)).Nodup ∧ ∀ sub, ((dat (dat d seg) sub).map (·.1)).Nodup := by
    intro d
    simp only [e3]
    exact hdat d (fun v => (v.map (·.1)).Nodup ∧ ∀ sub, ((dat v sub).map (·.1)).Nodup)
      ⟨List.nodup_nil, fun sub => List.nodup_nil⟩
  simp only [e2]
  exact hdat t (fun v => (v.map (·.1)).Nodup ∧ ∀ seg, ((dat v seg).map (·.1)).Nodup ∧
    ∀ sub, ((dat (dat v seg) sub).map (·.1)).Nodup)
    ⟨List.nodup_nil, fun seg => ⟨List.nodup_nil, fun sub => List.nodup_nil⟩⟩

theorem dicts_put4 {t : Symtab} (h : Dicts4 t) (tag seg sub kind : Str) (e : SymEntry) :
    Dicts4 (put4 t tag seg sub kind e) := by
  unfold put4
  refine ⟨dset_nodup h.1 _ _, fun tag' => ?_⟩
  rw [dat_dset]
  split
  · refine ⟨dset_nodup (h.2 tag).1 _ _, fun seg' => ?_⟩
    rw [dat_dset]
    split
    · refine ⟨dset_nodup ((h.2 tag).2 seg).1 _ _, fun sub' => ?_⟩
      rw [dat_dset]
      split
      · exact dset_nodup (((h.2 tag).2 seg).2 sub) _ _
      · exact ((h.2 tag).2 seg).2 sub'
    · exact (h.2 tag).2 seg'
  · exact h.2 tag'

theorem dicts_step {upper : Str → Str} {seg : Str} {st st' : BuildState} {c : CodeCard}
    (h : Dicts4 st.symtab) (hs : buildStep upper seg st c = .ok st') : Dicts4 st'.symtab := by
  rw [buildStep_eq] at hs
  cases ha : actionOf upper c with
  | skip => rw [ha] at hs; cases hs; exact h
  | err e l tt => rw [ha] at hs; cases hs; exact h
  | def_ tag tt o =>
    rw [ha] at hs
    simp only at hs
    rcases define_cases { st with subseg := stepSub st.subseg c } seg tag (symtypeOf o) o
      (entryOf c tt) with e | ⟨w, k, -, -, e⟩
    · rw [e] at hs; cases hs; exact dicts_put4 h _ _ _ _ _
    · rw [e] at hs
      split at hs
      · split at hs <;> cases hs
      · cases hs; exact h

theorem dicts_cards {upper : Str → Str} {seg : Str} {cards : List CodeCard} {st st' : BuildState}
    (h : Dicts4 st.symtab) (hs : buildCards upper seg st cards = .ok st') : Dicts4 st'.symtab := by
  unfold buildCards at hs
  induction cards generalizing st with
  | nil => cases hs; exact h
  | cons c cs ih =>
    rw [List.foldlM_cons] at hs
    cases h1 : buildStep upper seg st c with
    | error e => rw [h1] at hs; cases hs
    | ok st1 => rw [h1] at hs; exact ih (dicts_step h h1) hs

theorem dicts_build {upper : Str → Str} {fs : FileSystem} {fuel : Nat} {file : Str} {t : Symtab}
    {b : BuildState} (h : Dicts4 t) (hb : buildSymbolTable upper fs fuel file t = .ok b) :
    Dicts4 b.symtab := by
  obtain ⟨-, out, -, hb⟩ := build_ok hb
  exact dicts_cards (st := ⟨t, py "1", 0, []⟩) h hb

theorem dicts_nil : Dicts4 [] :=
  ⟨List.nodup_nil, fun _ => ⟨List.nodup_nil, fun _ => ⟨List.nodup_nil, fun _ => List.nodup_nil⟩⟩⟩

theorem dicts_all {upper : Str → Str} {fs : FileSystem} {fuel : Nat} {files : List Str}
    {r : Symtab × List Nat × Nat} (h : buildAll upper fs fuel files = .ok r) : Dicts4 r.1 := by
  unfold buildAll at h
  have gen : ∀ (files : List Str) (r0 r : Symtab × List Nat × Nat), Dicts4 r0.1 →
      files.foldlM (fun r f => do
        let b ← buildSymbolTable upper fs fuel f r.1
        return (b.symtab, r.2.1 ++ [b.errcount], r.2.2 + b.errcount)) r0 =
          Except.ok (ε := PyErr) r → Dicts4 r.1 := by
    intro files
    induction files with
    | nil => intro r0 r h0 h; cases h; exact h0
    | cons f files ih =>
      intro r0 r h0 h
      rw [List.foldlM_cons] at h
      cases hb : buildSymbolTable upper fs fuel f r0.1 with
      | error e => rw [hb] at h; cases h
      | ok b =>
        rw [hb] at h
        exact ih (b.symtab, r0.2.1 ++ [b.errcount], r0.2.2 + b.errcount) r (dicts_build h0 hb) h
  exact gen files _ r dicts_nil h

/-! ### Every symbol has a definition -/

/-- Every symbol of the table has a definition. -/
def Live (t : Symtab) : Prop :=
  ∀ n d, dget t n = some d → ∃ seg sub kind e, lookup4 t n seg sub kind = some e

theorem live_put4 {t : Symtab} (h : Live t) (tag seg sub kind : Str) (e : SymEntry) :
    Live (put4 t tag seg sub kind e) := by
  intro n d hd
  by_cases hn : n = tag
  · subst hn
    exact ⟨seg, sub, kind, e, by rw [lookup4_put4]; simp⟩
  · unfold put4 at hd
    rw [dget_dset, if_neg hn] at hd
    obtain ⟨a, b, c, e', he⟩ := h n d hd
    refine ⟨a, b, c, e', ?_⟩
    rw [lookup4_put4, if_neg (fun h => hn h.1)]
    exact he

theorem live_step {upper : Str → Str} {seg : Str} {st st' : BuildState} {c : CodeCard}
    (h : Live st.symtab) (hs : buildStep upper seg st c = .ok st') : Live st'.symtab := by
  rw [buildStep_eq] at hs
  cases ha : actionOf upper c with
  | skip => rw [ha] at hs; cases hs; exact h
  | err e l tt => rw [ha] at hs; cases hs; exact h
  | def_ tag tt o =>
    rw [ha] at hs
    simp only at hs
    rcases define_cases { st with subseg := stepSub st.subseg c } seg tag (symtypeOf o) o
      (entryOf c tt) with e | ⟨w, k, -, -, e⟩
    · rw [e] at hs; cases hs; exact live_put4 h _ _ _ _ _
    · rw [e] at hs
      split at hs
      · split at hs <;> cases hs
      · cases hs; exact h

theorem live_cards {upper : Str → Str} {seg : Str} {cards : List CodeCard} {st st' : BuildState}
    (h : Live st.symtab) (hs : buildCards upper seg st cards = .ok st') : Live st'.symtab := by
  unfold buildCards at hs
  induction cards generalizing st with
  | nil => cases hs; exact h
  | cons c cs ih =>
    rw [List.foldlM_cons] at hs
    cases h1 : buildStep upper seg st c with
    | error e => rw [h1] at hs; cases hs
    | ok st1 => rw [h1] at hs; exact ih (live_step h h1) hs

theorem live_all {upper : Str → Str} {fs : FileSystem} {fuel : Nat} {files : List Str}
    {r : Symtab × List Nat × Nat} (h : buildAll upper fs fuel files = .ok r) : Live r.1 := by
  unfold buildAll at h
  have gen : ∀ (files : List Str) (r0 r : Symtab × List Nat × Nat), Live r0.1 →
      files.foldlM (fun r f => do
        let b ← buildSymbolTable upper fs fuel f r.1
        return (b.symtab, r.2.1 ++ [b.errcount], r.2.2 + b.errcount)) r0 =
          Except.ok (ε := PyErr) r → Live r.1 := by
    intro files
    induction files with
    | nil => intro r0 r h0 h; cases h; exact h0
    | cons f files ih =>
      intro r0 r h0 h
      rw [List.foldlM_cons] at h
      cases hb : buildSymbolTable upper fs fuel f r0.1 with
      | error e => rw [hb] at h; cases h
      | ok b =>
        rw [hb] at h
        obtain ⟨-, out, -, hc⟩ := build_ok hb
        exact ih (b.symtab, r0.2.1 ++ [b.errcount], r0.2.2 + b.errcount) r
          (live_cards (st := ⟨r0.1, py "1", 0, []⟩) h0 hc) h
  exact gen files _ r (fun n d hd => by cases hd) h

/-! ### The listing of the table -/

/-- The row of a definition. -/
def rowOf (tag seg sub kind : Str) (e : SymEntry) : Row :=
  ⟨tag, seg, sub, kind, e.tagtype, splitFirst (e.file.getD []) '.', e.line, e.card.text⟩

/-- The rows of a subsegment. -/
def kindRows (tag seg sub : Str) (kinds : Dict Str SymEntry) : List Row :=
  (sortedKeys kinds).flatMap fun k => ((dget kinds k).map (rowOf tag seg sub k)).toList

/-- The rows of a segment. -/
def subRows (tag seg : Str) (subs : Dict Str (Dict Str SymEntry)) : List Row :=
  (sortedKeys subs).flatMap fun k => kindRows tag seg k (dat subs k)

/-- The rows of a symbol. -/
def segRows (tag : Str) (segs : Dict Str (Dict Str (Dict Str SymEntry))) : List Row :=
  (sortedKeys segs).flatMap fun k => subRows tag k (dat segs k)

/-- The rows of a table. -/
def tableRows (t : Symtab) : List Row :=
  (sortedKeys t).flatMap fun k => segRows k (dat t k)

theorem dgetE_ok {ν : Type} {d : Dict Str ν} {k : Str} {v : ν} :
    dgetE d k = .ok v ↔ dget d k = some v := by
  unfold dgetE
  cases dget d k <;> simp

theorem dgetE_dat {ν : Type} {d : Dict Str (Dict Str ν)} {k : Str} {v : Dict Str ν}
    (h : dgetE d k = .ok v) : dat d k = v := by
  rw [dgetE_ok] at h
  unfold dat
  rw [h]; rfl

theorem kindLines_rows {kinds : Dict Str SymEntry} {l : List ListLine}
    (h : kindLines kinds = .ok l) (tag seg sub : Str) (rest : List ListLine) :
    rows tag seg sub (l ++ rest) = kindRows tag seg sub kinds ++ rows tag seg sub rest := by
  unfold kindLines at h
  unfold kindRows
  generalize sortedKeys kinds = ks at h
  induction ks generalizing l with
  | nil => rw [mapM_nil_ok.1 h]; rfl
  | cons k ks ih =>
    obtain ⟨x, xs, h1, h2, rfl⟩ := mapM_cons_ok.1 h
    cases hd : dget kinds k with
    | none => simp only [dgetE, hd, py_bind_error] at h1; cases h1
    | some e =>
      simp only [dgetE, hd, py_bind_ok] at h1
      unfold entryLine at h1
      cases hf : e.file with
      | none => rw [hf] at h1; cases h1
      | some f =>
        rw [hf] at h1
        cases h1
        rw [List.flatMap_cons, hd, List.cons_append]
        simp only [rows, Option.map_some, Option.toList_some, ih h2, rowOf, hf, Option.getD_some]
        rfl

theorem subLines_rows {subs : Dict Str (Dict Str SymEntry)} {l : List ListLine}
    (h : subLines subs = .ok l) (tag seg sub : Str) (rest : List ListLine) :
    ∃ sub', rows tag seg sub (l ++ rest) = subRows tag seg subs ++ rows tag seg sub' rest := by
  unfold subLines at h
  unfold subRows
  generalize sortedKeys subs = ks at h
  cases hm : ks.mapM (fun k => do
      return ListLine.sub k :: (← kindLines (← dgetE subs k))) with
  | error e => rw [hm] at h; cases h
  | ok ls =>
    rw [hm] at h
    cases h
    induction ks generalizing ls sub with
    | nil => rw [mapM_nil_ok.1 hm]; exact ⟨sub, rfl⟩
    | cons k ks ih =>
      obtain ⟨x, xs, h1, h2, rfl⟩ := mapM_cons_ok.1 hm
      cases hd : dgetE subs k with
      | error e => rw [hd] at h1; cases h1
      | ok d =>
        rw [hd, py_bind_ok] at h1
        cases hk : kindLines d with
        | error e => rw [hk] at h1; cases h1
        | ok kl =>
          rw [hk] at h1
          cases h1
          obtain ⟨sub', e⟩ := ih k xs h2
          refine ⟨sub', ?_⟩
          rw [List.flatMap_cons, dgetE_dat hd, List.flatten_cons, List.append_assoc,
            List.cons_append, rows, kindLines_rows hk, e, List.append_assoc]

theorem segLines_rows {segs : Dict Str (Dict Str (Dict Str SymEntry))} {l : List ListLine}
    (h : segLines segs = .ok l) (tag seg sub : Str) (rest : List ListLine) :
    ∃ seg' sub', rows tag seg sub (l ++ rest) = segRows tag segs ++ rows tag seg' sub' rest := by
  unfold segLines at h
  unfold segRows
  generalize sortedKeys segs = ks at h
  cases hm : ks.mapM (fun k => do
      return ListLine.seg k :: (← subLines (← dgetE segs k))) with
  | error e => rw [hm] at h; cases h
  | ok ls =>
    rw [hm] at h
    cases h
    induction ks generalizing ls seg sub with
    | nil => rw [mapM_nil_ok.1 hm]; exact ⟨seg, sub, rfl⟩
    | cons k ks ih =>
      obtain ⟨x, xs, h1, h2, rfl⟩ := mapM_cons_ok.1 hm
      cases hd : dgetE segs k with
      | error e => rw [hd] at h1; cases h1
      | ok d =>
        rw [hd, py_bind_ok] at h1
        cases hk : subLines d with
        | error e => rw [hk] at h1; cases h1
        | ok kl =>
          rw [hk] at h1
          cases h1
          obtain ⟨sub0, e0⟩ := subLines_rows hk tag k sub (xs.flatten ++ rest)
          obtain ⟨seg', sub', e⟩ := ih k sub0 xs h2
          refine ⟨seg', sub', ?_⟩
          rw [List.flatMap_cons, dgetE_dat hd, List.flatten_cons, List.append_assoc,
            List.cons_append, rows, e0, e, List.append_assoc]

theorem tableLines_rows {t : Symtab} {l : List ListLine}
    (h : tableLines t = .ok l) (tag seg sub : Str) (rest : List ListLine) :
    ∃ tag' seg' sub',
      rows tag seg sub (l ++ rest) = tableRows t ++ rows tag' seg' sub' rest := by
  unfold tableLines at h
  unfold tableRows
  generalize sortedKeys t = ks at h
  cases hm : ks.mapM (fun k => do
      return ListLine.sym k :: (← segLines (← dgetE t k))) with
  | error e => rw [hm] at h; cases h
  | ok ls =>
    rw [hm] at h
    cases h
    induction ks generalizing ls tag seg sub with
    | nil => rw [mapM_nil_ok.1 hm]; exact ⟨tag, seg, sub, rfl⟩
    | cons k ks ih =>
      obtain ⟨x, xs, h1, h2, rfl⟩ := mapM_cons_ok.1 hm
      cases hd : dgetE t k with
      | error e => rw [hd] at h1; cases h1
      | ok d =>
        rw [hd, py_bind_ok] at h1
        cases hk : segLines d with
        | error e => rw [hk] at h1; cases h1
        | ok kl =>
          rw [hk] at h1
          cases h1
          obtain ⟨seg0, sub0, e0⟩ := segLines_rows hk k seg sub (xs.flatten ++ rest)
          obtain ⟨tag', seg', sub', e⟩ := ih k seg0 sub0 xs h2
          refine ⟨tag', seg', sub', ?_⟩
          rw [List.flatMap_cons, dgetE_dat hd, List.flatten_cons, List.append_assoc,
            List.cons_append, rows, e0, e, List.append_assoc]

theorem mapM_total {α β : Type} {f : α → Py β} {l : List α} (h : ∀ a ∈ l, ∃ b, f a = .ok b) :
    ∃ bs, l.mapM f = .ok bs := by
  induction l with
  | nil => exact ⟨[], rfl⟩
  | cons a l ih =>
    obtain ⟨b, hb⟩ := h a List.mem_cons_self
    obtain ⟨bs, hbs⟩ := ih fun x hx => h x (List.mem_cons_of_mem _ hx)
    exact ⟨b :: bs, mapM_cons_ok.2 ⟨b, bs, hb, hbs, rfl⟩⟩

/-- The listing fails only if a definition has no file. -/
theorem tableLines_total {t : Symtab}
    (h : ∀ tag seg sub kind e, Recorded t tag seg sub kind e → ∃ f, e.file = some f) :
    ∃ l, tableLines t = .ok l := by
  have hk : ∀ kinds : Dict Str SymEntry, (∀ k e, dget kinds k = some e → ∃ f, e.file = some f) →
      ∃ l, kindLines kinds = .ok l := by
    intro kinds hf
    unfold kindLines
    apply mapM_total
    intro k hk
    obtain ⟨e, he⟩ := mem_sortedKeys.1 hk
    obtain ⟨f, hff⟩ := hf k e he
    exact ⟨_, by simp only [dgetE, he, py_bind_ok, entryLine, hff]; rfl⟩
  have hsub : ∀ subs : Dict Str (Dict Str SymEntry), (∀ a d, dget subs a = some d →
      ∀ k e, dget d k = some e → ∃ f, e.file = some f) → ∃ l, subLines subs = .ok l := by
    intro subs hf
    unfold subLines
    obtain ⟨ls, hls⟩ := mapM_total (f := fun k => do
      return ListLine.sub k :: (← kindLines (← dgetE subs k))) (l := sortedKeys subs) (by
        intro k hkk
        obtain ⟨d, hd⟩ := mem_sortedKeys.1 hkk
        obtain ⟨l, hl⟩ := hk d (hf k d hd)
        exact ⟨_, by simp only [dgetE, hd, py_bind_ok, hl]; rfl⟩)
    exact ⟨ls.flatten, by rw [hls]; rfl⟩
  have hseg : ∀ segs : Dict Str (Dict Str (Dict Str SymEntry)), (∀ b c, dget segs b = some c →
      ∀ a d, dget c a = some d → ∀ k e, dget d k = some e → ∃ f, e.file = some f) →
      ∃ l, segLines segs = .ok l := by
    intro segs hf
    unfold segLines
    obtain ⟨ls, hls⟩ := mapM_total (f := fun k => do
      return ListLine.seg k :: (← subLines (← dgetE segs k))) (l := sortedKeys segs) (by
        intro k hkk
        obtain ⟨d, hd⟩ := mem_sortedKeys.1 hkk
        obtain ⟨l, hl⟩ := hsub d (hf k d hd)
        exact ⟨_, by simp only [dgetE, hd, py_bind_ok, hl]; rfl⟩)
    exact ⟨ls.flatten, by rw [hls]; rfl⟩
  unfold tableLines
  obtain ⟨ls, hls⟩ := mapM_total (f := fun k => do
    return ListLine.sym k :: (← segLines (← dgetE t k))) (l := sortedKeys t) (by
      intro k hkk
      obtain ⟨d, hd⟩ := mem_sortedKeys.1 hkk
      obtain ⟨l, hl⟩ := hseg d (fun b c hb a d' ha k' e he =>
        h k b a k' e ⟨d, c, d', hd, hb, ha, he⟩)
      exact ⟨_, by simp only [dgetE, hd, py_bind_ok, hl]; rfl⟩)
  exact ⟨ls.flatten, by rw [hls]; rfl⟩

theorem mapM_flatten_mem {α : Type} {f : α → Py (List ListLine)} {l : List α}
    {ls : List (List ListLine)} (h : l.mapM f = .ok ls) (P : ListLine → Prop)
    (hP : ∀ a b, f a = .ok b → ∀ x ∈ b, P x) : ∀ x ∈ ls.flatten, P x := by
  induction l generalizing ls with
  | nil => rw [mapM_nil_ok.1 h]; simp
  | cons a l ih =>
    obtain ⟨b, bs, h1, h2, rfl⟩ := mapM_cons_ok.1 h
    intro x hx
    rw [List.flatten_cons, List.mem_append] at hx
    rcases hx with hx | hx
    · exact hP a b h1 x hx
    · exact ih h2 x hx

/-- The lines of the table are no error lines. -/
theorem tableLines_noerr {t : Symtab} {l : List ListLine} (h : tableLines t = .ok l) :
    ∀ n, .errors n ∉ l := by
  have hk : ∀ kinds l, kindLines kinds = .ok l → ∀ x ∈ l, ∀ n, x ≠ ListLine.errors n := by
    intro kinds l hl
    unfold kindLines at hl
    generalize sortedKeys kinds = ks at hl
    induction ks generalizing l with
    | nil => rw [mapM_nil_ok.1 hl]; simp
    | cons k ks ih =>
      obtain ⟨x, xs, h1, h2, rfl⟩ := mapM_cons_ok.1 hl
      intro y hy
      rcases List.mem_cons.1 hy with rfl | hy
      · cases hd : dgetE kinds k with
        | error e => rw [hd] at h1; cases h1
        | ok e =>
          rw [hd, py_bind_ok] at h1
          unfold entryLine at h1
          split at h1
          · cases h1
          · cases h1; simp
      · exact ih xs h2 y hy
  have hs : ∀ subs l, subLines subs = .ok l → ∀ x ∈ l, ∀ n, x ≠ ListLine.errors n := by
    intro subs l hl
    unfold subLines at hl
    cases hm : (sortedKeys subs).mapM (fun k => do
        return ListLine.sub k :: (← kindLines (← dgetE subs k))) with
    | error e => rw [hm] at hl; cases hl
    | ok ls =>
      rw [hm] at hl; cases hl
      refine mapM_flatten_mem hm _ fun a b hab x hx => ?_
      cases hd : dgetE subs a with
      | error e => rw [hd] at hab; cases hab
      | ok d =>
        rw [hd, py_bind_ok] at hab
        cases hk' : kindLines d with
        | error e => rw [hk'] at hab; cases hab
        | ok l' =>
          rw [hk'] at hab; cases hab
          rcases List.mem_cons.1 hx with rfl | hx
          · simp
          · exact hk d l' hk' x hx
  have hg : ∀ segs l, segLines segs = .ok l → ∀ x ∈ l, ∀ n, x ≠ ListLine.errors n := by
    intro segs l hl
    unfold segLines at hl
    cases hm : (sortedKeys segs).mapM (fun k => do
        return ListLine.seg k :: (← subLines (← dgetE segs k))) with
    | error e => rw [hm] at hl; cases hl
    | ok ls =>
      rw [hm] at hl; cases hl
      refine mapM_flatten_mem hm _ fun a b hab x hx => ?_
      cases hd : dgetE segs a with
      | error e => rw [hd] at hab; cases hab
      | ok d =>
        rw [hd, py_bind_ok] at hab
        cases hk' : subLines d with
        | error e => rw [hk'] at hab; cases hab
        | ok l' =>
          rw [hk'] at hab; cases hab
          rcases List.mem_cons.1 hx with rfl | hx
          · simp
          · exact hs d l' hk' x hx
  unfold tableLines at h
  cases hm : (sortedKeys t).mapM (fun k => do
      return ListLine.sym k :: (← segLines (← dgetE t k))) with
  | error e => rw [hm] at h; cases h
  | ok ls =>
    rw [hm] at h; cases h
    intro n hn
    refine mapM_flatten_mem hm (fun x => ∀ n, x ≠ ListLine.errors n)
      (fun a b hab x hx => ?_) _ hn n rfl
    cases hd : dgetE t a with
    | error e => rw [hd] at hab; cases hab
    | ok d =>
      rw [hd, py_bind_ok] at hab
      cases hk' : segLines d with
      | error e => rw [hk'] at hab; cases hab
      | ok l' =>
        rw [hk'] at hab; cases hab
        rcases List.mem_cons.1 hx with rfl | hx
        · simp
        · exact hg d l' hk' x hx

theorem mem_tableRows (t : Symtab) (r : Row) :
    r ∈ tableRows t ↔ ∃ e, Recorded t r.tag r.seg r.sub r.kind e ∧
      r = rowOf r.tag r.seg r.sub r.kind e := by
  simp only [recorded_iff, lookup4]
  unfold tableRows segRows subRows kindRows
  simp only [List.mem_flatMap, mem_sortedKeys, Option.mem_toList, Option.map_eq_some_iff]
  constructor
  · rintro ⟨tag, -, seg, -, sub, -, kind, -, e, he, rfl⟩
    exact ⟨e, he, rfl⟩
  · rintro ⟨e, he, hr⟩
    have h3 := he
    obtain ⟨d3, e3, -⟩ := (dget_dat _ _ _ _).1 h3
    obtain ⟨d2, e2, -⟩ := (dget_dat _ _ _ _).1 e3
    obtain ⟨d1, e1, -⟩ := (dget_dat _ _ _ _).1 e2
    exact ⟨r.tag, ⟨d1, e1⟩, r.seg, ⟨d2, e2⟩, r.sub, ⟨d3, e3⟩, r.kind, ⟨e, he⟩, e, he, hr.symm⟩

theorem tableRows_sorted {t : Symtab} (h : Dicts4 t) : (tableRows t).Pairwise Row.Before := by
  obtain ⟨h0, h⟩ := h
  unfold tableRows
  rw [List.pairwise_flatMap]
  have hk : ∀ tag seg sub kinds, ∀ r ∈ kindRows tag seg sub kinds,
      r.tag = tag ∧ r.seg = seg ∧ r.sub = sub := by
    intro tag seg sub kinds r hr
    unfold kindRows at hr
    simp only [List.mem_flatMap, Option.mem_toList, Option.map_eq_some_iff] at hr
    obtain ⟨k, -, e, -, rfl⟩ := hr
    exact ⟨rfl, rfl, rfl⟩
  have hs : ∀ tag seg subs, ∀ r ∈ subRows tag seg subs, r.tag = tag ∧ r.seg = seg := by
    intro tag seg subs r hr
    unfold subRows at hr
    obtain ⟨k, -, hr⟩ := List.mem_flatMap.1 hr
    exact ⟨(hk _ _ _ _ r hr).1, (hk _ _ _ _ r hr).2.1⟩
  have hg : ∀ tag segs, ∀ r ∈ segRows tag segs, r.tag = tag := by
    intro tag segs r hr
    unfold segRows at hr
    obtain ⟨k, -, hr⟩ := List.mem_flatMap.1 hr
    exact (hs _ _ _ r hr).1
  refine ⟨fun tag _ => ?_, (sortedKeys_increasing h0).imp fun {a b} hab x hx y hy => ?_⟩
  swap
  · left; rw [hg _ _ x hx, hg _ _ y hy]; exact hab
  obtain ⟨h1, h⟩ := h tag
  unfold segRows
  rw [List.pairwise_flatMap]
  refine ⟨fun seg _ => ?_, (sortedKeys_increasing h1).imp fun {a b} hab x hx y hy => ?_⟩
  swap
  · right
    rw [(hs _ _ _ x hx).1, (hs _ _ _ y hy).1, (hs _ _ _ x hx).2, (hs _ _ _ y hy).2]
    exact ⟨rfl, Or.inl hab⟩
  obtain ⟨h2, h⟩ := h seg
  unfold subRows
  rw [List.pairwise_flatMap]
  refine ⟨fun sub _ => ?_, (sortedKeys_increasing h2).imp fun {a b} hab x hx y hy => ?_⟩
  swap
  · right
    obtain ⟨x1, x2, x3⟩ := hk _ _ _ _ x hx
    obtain ⟨y1, y2, y3⟩ := hk _ _ _ _ y hy
    rw [x1, x2, x3, y1, y2, y3]
    exact ⟨rfl, Or.inr ⟨rfl, Or.inl hab⟩⟩
  unfold kindRows
  rw [List.pairwise_flatMap]
  refine ⟨fun k _ => ?_, (sortedKeys_increasing (h sub)).imp fun {a b} hab x hx y hy => ?_⟩
  · cases dget (dat (dat (dat t tag) seg) sub) k <;> simp
  · simp only [Option.mem_toList, Option.map_eq_some_iff] at hx hy
    obtain ⟨e, -, rfl⟩ := hx
    obtain ⟨e', -, rfl⟩ := hy
    exact Or.inr ⟨rfl, Or.inr ⟨rfl, Or.inr ⟨rfl, hab⟩⟩⟩

/-! ### parse.py -/

theorem parseStep_spec (st : ParseState) (c : CodeCard) :
    (parseStep st c).linecount = st.linecount + 1 ∧
    (parseStep st c).instrcount = st.instrcount + (if (instOf c).isSome then 1 else 0) ∧
    (parseStep st c).errcount = st.errcount + (if badInst c then 1 else 0) ∧
    (parseStep st c).symtab = st.symtab ∧ (parseStep st c).fileErrs = st.fileErrs := by
  unfold parseStep badInst instOf star
  cases hc : c.instruction with
  | none => simp
  | some i =>
    cases i with
    | nil => simp
    | cons x xs =>
      by_cases h8 : c.column8 = some (py "*")
      · simp [h8]
      · by_cases hi : INSTRUCTIONS.contains (x :: xs) = true
        · have : (x :: xs) ∈ INSTRUCTIONS := by simpa using hi
          simp [h8, this]
        · have : (x :: xs) ∉ INSTRUCTIONS := by simpa using hi
          simp [h8, this]

theorem parseFold_spec (cards : List CodeCard) (st : ParseState) :
    (cards.foldl parseStep st).linecount = st.linecount + cards.length ∧
    (cards.foldl parseStep st).instrcount =
      st.instrcount + cards.countP (fun c => (instOf c).isSome) ∧
    (cards.foldl parseStep st).errcount = st.errcount + cards.countP badInst ∧
    (cards.foldl parseStep st).symtab = st.symtab ∧
    (cards.foldl parseStep st).fileErrs = st.fileErrs := by
  induction cards generalizing st with
  | nil => simp
  | cons c cs ih =>
    obtain ⟨h1, h2, h3, h4, h5⟩ := ih (parseStep st c)
    obtain ⟨k1, k2, k3, k4, k5⟩ := parseStep_spec st c
    rw [List.foldl_cons, h1, h2, h3, h4, h5, k1, k2, k3, k4, k5, List.countP_cons,
      List.countP_cons, List.length_cons]
    refine ⟨by omega, by omega, by omega, rfl, rfl⟩

open Classical in
theorem parseSymbols_ok {upper : Str → Str} {fs : FileSystem} {fuel : Nat} {files : List Str}
    (hp : ∀ f ∈ files, PlainSeg (splitFirst f '.')) {st st' : ParseState}
    (ht : Plain4 st.symtab) (h : parseSymbols upper fs fuel files st = .ok st') :
    ∃ srcs, Read fs files srcs ∧ st'.symtab = buildSrcs upper st.symtab srcs ∧
      Plain4 st'.symtab ∧ st'.linecount = st.linecount ∧ st'.instrcount = st.instrcount ∧
      st'.fileErrs = st.fileErrs ++
        srcs.map (fun p => (p.2.filter fun s => decide (InError upper s)).length) ∧
      st'.errcount = ((srcs.getLast?.map fun p =>
        (p.2.filter fun s => decide (InError upper s)).length).getD st.errcount) := by
  unfold parseSymbols at h
  induction files generalizing st with
  | nil =>
    cases h
    exact ⟨[], ⟨rfl, by simp⟩, rfl, ht, rfl, rfl, by simp, rfl⟩
  | cons f files ih =>
    rw [List.foldlM_cons] at h
    cases hb : buildSymbolTable upper fs fuel f st.symtab with
    | error e => rw [hb] at h; cases h
    | ok b =>
      rw [hb] at h
      obtain ⟨out, ho, e, hpl⟩ := build_pure_ok (hp f List.mem_cons_self) ht hb
      obtain ⟨srcs, ⟨h1, h2⟩, h3, h4, h5, h6, h7, h8⟩ :=
        ih (st := { st with
            symtab := b.symtab, errcount := b.errcount, fileErrs := st.fileErrs ++ [b.errcount] })
          (fun g hg => hp g (List.mem_cons_of_mem _ hg)) hpl h
      have he := buildPure_errs upper st.symtab f out
      rw [← e] at he
      refine ⟨(f, out) :: srcs, ⟨by rw [List.map_cons, h1], ?_⟩, ?_, h4, h5, h6, ?_, ?_⟩
      · intro p hp
        rcases List.mem_cons.1 hp with rfl | hp
        · exact ho
        · exact h2 p hp
      · rw [h3, e]; rfl
      · rw [h7, he]; simp
      · rw [h8]
        simp only
        rw [he, List.getLast?_cons]
        cases srcs.getLast? <;> rfl

theorem parseSymbols_complete {upper : Str → Str} {fs : FileSystem}
    {srcs : List (Str × List Src)} (hne : ∀ p ∈ srcs, p.1 ≠ [])
    (hp : ∀ p ∈ srcs, PlainSeg (splitFirst p.1 '.')) (h : ∀ p ∈ srcs, Expands fs p.1 p.2) :
    ∃ n, ∀ st : ParseState, Plain4 st.symtab → ∃ st', ∀ m, n ≤ m →
      parseSymbols upper fs m (srcs.map (·.1)) st = .ok st' := by
  unfold parseSymbols
  induction srcs with
  | nil => exact ⟨0, fun r _ => ⟨r, fun m _ => rfl⟩⟩
  | cons p srcs ih =>
    obtain ⟨n1, hn1⟩ := build_pure_complete (upper := upper) (hne p List.mem_cons_self)
      (hp p List.mem_cons_self) (h p List.mem_cons_self)
    obtain ⟨n2, hn2⟩ := ih (fun q hq => hne q (List.mem_cons_of_mem _ hq))
      (fun q hq => hp q (List.mem_cons_of_mem _ hq)) (fun q hq => h q (List.mem_cons_of_mem _ hq))
    refine ⟨max n1 n2, fun r hr => ?_⟩
    obtain ⟨k1, k2⟩ := hn1 r.symtab hr
    obtain ⟨r', hr'⟩ := hn2 { r with
      symtab := (buildPure upper r.symtab p.1 p.2).symtab
      errcount := (buildPure upper r.symtab p.1 p.2).errcount
      fileErrs := r.fileErrs ++ [(buildPure upper r.symtab p.1 p.2).errcount] } k1
    refine ⟨r', fun m hm => ?_⟩
    rw [List.map_cons, List.foldlM_cons, k2 m (by omega)]
    exact hr' m (by omega)

theorem read_sources {fs : FileSystem} {files : List Str} {srcs : List (Str × List Src)}
    (h : Read fs files srcs) : Sources fs files (srcs.flatMap (·.2)) := by
  obtain ⟨rfl, h⟩ := h
  induction srcs with
  | nil => exact sources_nil
  | cons p srcs ih =>
    rw [List.flatMap_cons]
    exact sources_cons (h p List.mem_cons_self) (ih fun q hq => h q (List.mem_cons_of_mem _ hq))

end H800
