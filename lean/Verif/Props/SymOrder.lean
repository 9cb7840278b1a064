import Verif.Lemmas.SymOrder

/-!
Properties C104, C105, C106: the layout of a symbol listing, and what does not depend on the order
and the number of times in which files are given. Segment names are taken not to be the names of
kinds (`PlainFiles`), see C71.
-/

namespace H800

open Spec

/-! ### The layout -/

open Classical in
/-- C104: a symbol listing has a heading for the tag, the segment and the subsegment of a definition
exactly where they change, and nothing else but the definitions and, at the end, the number of lines
in error if there are any. With C92 this says what the listing is, line by line. -/
theorem C104_layout (upper : Str → Str) (fs : FileSystem) (fuel : Nat) (files : List Str)
    (l : List ListLine) (hp : PlainFiles files) (h : listSymbols upper fs fuel files = .ok l) :
    ∃ srcs n, Read fs files srcs ∧
      n = ((srcs.flatMap (·.2)).filter fun s => decide (InError upper s)).length ∧
      l = layout none (rows [] [] [] l) ++ if n = 0 then [] else [.errors n] := by
  unfold listSymbols at h
  split at h
  · cases h
  · cases hb : buildAll upper fs fuel files with
    | error e => rw [hb] at h; cases h
    | ok r =>
      obtain ⟨t, errs, tot⟩ := r
      rw [hb, py_bind_ok] at h
      simp only at h
      cases ht : tableLines t with
      | error e => rw [ht] at h; cases h
      | ok tl =>
        rw [ht, py_bind_ok] at h
        cases h
        obtain ⟨srcs, hr, -, -, -, h4⟩ := buildAll_ok_from (plainFiles_iff.1 hp) plain4_nil hb
        simp only [Nat.zero_add] at h4
        obtain ⟨a, b, c, e⟩ := tableLines_rows ht [] [] []
          (if tot > 0 then [ListLine.errors tot] else [])
        have e0 : rows a b c (if tot > 0 then [ListLine.errors tot] else []) = [] := by
          split <;> rfl
        rw [e0, List.append_nil] at e
        refine ⟨srcs, tot, hr, h4, ?_⟩
        rw [e, layout_table (full_all hb) (dicts_all hb), tableLines_pure ht]
        congr 1
        by_cases h0 : tot = 0
        · subst h0; rfl
        · rw [if_pos (Nat.pos_of_ne_zero h0), if_neg h0]

/-- C104: the layout has all definitions, in order. -/
theorem C104_rows (rs : List Row) : rows [] [] [] (layout none rs) = rs := by
  have gen : ∀ (rs : List Row) (p : Option Row) (tag seg sub : Str),
      (∀ q, p = some q → q.tag = tag ∧ q.seg = seg ∧ q.sub = sub) →
      rows tag seg sub (layout p rs) = rs := by
    intro rs
    induction rs with
    | nil => intros; rfl
    | cons r rs ih =>
      intro p tag seg sub hp
      have ih' := ih (some r) r.tag r.seg r.sub (fun q hq => by cases hq; exact ⟨rfl, rfl, rfl⟩)
      rw [layout]
      cases p with
      | none => simp [headings, rows, ih']
      | some q =>
        obtain ⟨h1, h2, h3⟩ := hp q rfl
        by_cases e1 : q.tag = r.tag
        · by_cases e2 : q.seg = r.seg
          · by_cases e3 : q.sub = r.sub
            · simp only [headings, e1, e2, e3, ne_eq, not_true, if_false, List.nil_append, rows]
              rw [← h1, ← h2, ← h3, e1, e2, e3, ih']
            · simp only [headings, e1, e2, e3, ne_eq, not_true, not_false_eq_true, if_false, if_true,
                List.cons_append, List.nil_append, rows]
              rw [← h1, ← h2, e1, e2, ih']
          · simp only [headings, e1, e2, ne_eq, not_true, not_false_eq_true, if_false, if_true,
              List.cons_append, List.nil_append, rows]
            rw [← h1, e1, ih']
        · simp only [headings, e1, ne_eq, not_false_eq_true, if_true,
            List.cons_append, List.nil_append, rows, ih']
  exact gen rs none [] [] [] (fun q hq => by cases hq)

/-- Two tags, the first in two subsegments, and an error. -/
example : ∃ l, listSymbols asciiUpper symFs 10 [py "T.arg"] = .ok l ∧
    l = [.sym (py "A"), .seg (py "T"), .sub (py "1"),
      .entry (py "simple") (py " ") (py "T") 2 (py "        A          TX"),
      .sub (py "2"), .entry (py "complex") (py "S") (py "T") 6 (py "        S,A        ASSIGN"),
      .errors 2] := by
  refine ⟨_, rfl, ?_⟩
  decide +kernel

/-! ### Order -/

/-- The names of the files up to the first dot, the segments, are different. -/
def DistinctSegs (files : List Str) : Prop :=
  files.Pairwise fun f g => ∀ seg, BeforeFirst '.' f seg → ¬ BeforeFirst '.' g seg

theorem distinct_read {fs : FileSystem} {files : List Str} {srcs : List (Str × List Src)}
    (hd : DistinctSegs files) (h : Read fs files srcs) :
    srcs.Pairwise fun p q => splitFirst p.1 '.' ≠ splitFirst q.1 '.' := by
  obtain ⟨rfl, -⟩ := h
  unfold DistinctSegs at hd
  rw [List.pairwise_map] at hd
  refine hd.imp fun {p q} hpq e => ?_
  exact hpq _ (beforeFirst '.' p.1) (e ▸ beforeFirst '.' q.1)

theorem distinct_perm {files files' : List Str} (hf : files.Perm files') (hd : DistinctSegs files) :
    DistinctSegs files' :=
  hf.pairwise hd (fun h seg h1 h2 => h seg h2 h1)

theorem plain_perm {files files' : List Str} (hf : files.Perm files') (hp : PlainFiles files) :
    PlainFiles files' := fun f h => hp f (hf.mem_iff.2 h)

/-- C105: list-symbols prints the same for the same files in any other order, if they have different
segments. -/
theorem C105_list (upper : Str → Str) (fs : FileSystem) (fuel : Nat) (files files' : List Str)
    (l : List ListLine) (hp : PlainFiles files) (hd : DistinctSegs files) (hf : files.Perm files')
    (h : listSymbols upper fs fuel files = .ok l) : listSymbols upper fs fuel files' = .ok l := by
  classical
  have hp' := plain_perm hf hp
  have hd' := distinct_perm hf hd
  obtain ⟨l', hl'⟩ : ∃ l', listSymbols upper fs fuel files' = .ok l' := by
    unfold listSymbols at h ⊢
    rw [← hf.length_eq]
    split at h
    · cases h
    · rename_i hlen
      rw [if_neg hlen]
      cases hb : buildAll upper fs fuel files with
      | error e => rw [hb] at h; cases h
      | ok r =>
        obtain ⟨r', hb'⟩ := buildAll_subset hp' (fun f hm => hf.mem_iff.2 hm) hb
        obtain ⟨srcs', hr', e1, -⟩ := buildAll_ok_from (plainFiles_iff.1 hp') plain4_nil hb'
        simp only at e1
        obtain ⟨tl, htl⟩ := tableLines_total (t := r'.1) (by
          intro tag seg sub kind e he
          rw [recorded_iff, e1,
            buildSrcs_recorded upper srcs' [] (read_plain hr' hp') plain4_nil] at he
          rcases he with ⟨k, i, s, tt, -, rfl⟩ | ⟨he, -⟩
          · exact ⟨s.file, rfl⟩
          · cases he)
        rw [hb', py_bind_ok]
        simp only
        rw [htl]
        exact ⟨_, rfl⟩
  obtain ⟨srcs, hr, hs, hrow, -⟩ := C92_rows upper fs fuel files l hp h
  obtain ⟨srcs', hr', hs', hrow', -⟩ := C92_rows upper fs fuel files' l' hp' hl'
  obtain ⟨s0, n, hr0, hn, hlay⟩ := C104_layout upper fs fuel files l hp h
  obtain ⟨s0', n', hr0', hn', hlay'⟩ := C104_layout upper fs fuel files' l' hp' hl'
  obtain rfl := read_unique hr hr0
  obtain rfl := read_unique hr' hr0'
  have hperm := read_perm hf hr hr'
  have hnn : n = n' := by
    rw [hn, hn']
    exact ((hperm.flatMap_right _).filter _).length_eq
  have hrows : rows [] [] [] l = rows [] [] [] l' := by
    refine rows_ext hs hs' fun r => ?_
    rw [hrow, hrow']
    constructor
    · rintro ⟨k, i, s, hfd, hrest⟩
      obtain ⟨p, hpm, h1⟩ := (finalDef_iff (distinct_read hd hr) _ _ _ _ _ _ _).1 ⟨k, hfd⟩
      obtain ⟨k', hk'⟩ := (finalDef_iff (distinct_read hd' hr') _ _ _ _ _ _ _).2
        ⟨p, hperm.mem_iff.1 hpm, h1⟩
      exact ⟨k', i, s, hk', hrest⟩
    · rintro ⟨k, i, s, hfd, hrest⟩
      obtain ⟨p, hpm, h1⟩ := (finalDef_iff (distinct_read hd' hr') _ _ _ _ _ _ _).1 ⟨k, hfd⟩
      obtain ⟨k', hk'⟩ := (finalDef_iff (distinct_read hd hr) _ _ _ _ _ _ _).2
        ⟨p, hperm.mem_iff.2 hpm, h1⟩
      exact ⟨k', i, s, hk', hrest⟩
  rw [hl', hlay, hlay', hrows, hnn]

/-- C105: check-symbols reports the same symbols and the same total for the same files in any other
order, also if they have the same segment. -/
theorem C105_check (upper : Str → Str) (extract : Str → List Str → Nat → List Str)
    (fs : FileSystem) (fuel : Nat) (complex : Bool) (files files' : List Str) (rep : SymReport)
    (hp : PlainFiles files) (hf : files.Perm files')
    (h : checkSymbols upper extract fs fuel complex files = .ok rep) :
    ∃ rep', checkSymbols upper extract fs fuel complex files' = .ok rep' ∧
      rep'.undefined.map (·.1) = rep.undefined.map (·.1) ∧ rep'.total = rep.total ∧
      rep'.fileErrs.Perm rep.fileErrs := by
  classical
  have hp' := plain_perm hf hp
  obtain ⟨rep', hrep'⟩ : ∃ rep', checkSymbols upper extract fs fuel complex files' = .ok rep' := by
    unfold checkSymbols at h ⊢
    rw [← hf.length_eq]
    split at h
    · cases h
    · rename_i hlen
      rw [if_neg hlen]
      cases hb : buildAll upper fs fuel files with
      | error e => rw [hb] at h; cases h
      | ok r =>
        obtain ⟨r', hb'⟩ := buildAll_subset hp' (fun f hm => hf.mem_iff.2 hm) hb
        rw [hb', py_bind_ok]
        exact ⟨_, rfl⟩
  obtain ⟨srcs, hr, he, hi, hm, ht⟩ := C85_total upper extract fs fuel complex files rep hp h
  obtain ⟨srcs', hr', he', hi', hm', ht'⟩ :=
    C85_total upper extract fs fuel complex files' rep' hp' hrep'
  have hperm := read_perm hf hr hr'
  have hdef : ∀ n kind, (∃ k i s tt seg sub, DefinedIn upper srcs' k i s n tt seg sub kind) ↔
      ∃ k i s tt seg sub, DefinedIn upper srcs k i s n tt seg sub kind := by
    intro n kind
    have one : ∀ {a b : List (Str × List Src)}, a.Perm b →
        (∃ k i s tt seg sub, DefinedIn upper a k i s n tt seg sub kind) →
        ∃ k i s tt seg sub, DefinedIn upper b k i s n tt seg sub kind := by
      rintro a b hab ⟨k, i, s, tt, seg, sub, f, o, h1, h2⟩
      obtain ⟨k', hk'⟩ := List.getElem?_of_mem (hab.mem_iff.1 (List.mem_of_getElem? h1))
      exact ⟨k', i, s, tt, seg, sub, f, o, hk', h2⟩
    exact ⟨one hperm.symm, one hperm⟩
  have hund : rep'.undefined.map (·.1) = rep.undefined.map (·.1) := by
    have nd : ∀ {l : List Str}, Increasing l → l.Nodup := fun hl => hl.imp fun h => h.2
    have hpm : (rep'.undefined.map (·.1)).Perm (rep.undefined.map (·.1)) := by
      refine (List.perm_ext_iff_of_nodup (nd hi') (nd hi)).2 fun n => ?_
      rw [hm, hm', hdef, hdef]
    exact hpm.eq_of_pairwise (fun x y _ _ h1 h2 => strLe_antisymm x y h1.1 h2.1) hi' hi
  refine ⟨rep', hrep', hund, ?_, ?_⟩
  · rw [ht, ht', ← hf.length_eq, ((hperm.flatMap_right _).filter _).length_eq]
    have := congrArg List.length hund
    rw [List.length_map, List.length_map] at this
    rw [this]
  · rw [he, he']
    exact (hperm.map _).symm

/-- Two files of the same segment that define the same tag. -/
def sameSegFs : FileSystem := fun f =>
  if f = py "A.arg" then some (py "        C          TN\n")
  else if f = py "A.txt" then some (py "        C          TX\n")
  else if f = py "B.arg" then some (py "        C          TS\n")
  else none

/-- C105: with the same segment the order matters: the definition in the later file is listed. -/
theorem C105_segments_needed : ∃ l l',
    listSymbols asciiUpper sameSegFs 10 [py "A.arg", py "A.txt"] = .ok l ∧
    listSymbols asciiUpper sameSegFs 10 [py "A.txt", py "A.arg"] = .ok l' ∧
    (rows [] [] [] l).map (·.card) = [py "        C          TX"] ∧
    (rows [] [] [] l').map (·.card) = [py "        C          TN"] := by
  refine ⟨_, _, rfl, rfl, ?_⟩
  decide +kernel

example : DistinctSegs [py "A.arg", py "B.arg"] := by
  unfold DistinctSegs
  simp only [List.pairwise_cons, List.mem_singleton, forall_eq, List.not_mem_nil, false_implies,
    implies_true, List.Pairwise.nil, and_true]
  intro seg h1 h2
  have e := (beforeFirst_unique h1).trans (beforeFirst_unique h2).symm
  revert e
  decide

example : ∃ l, listSymbols asciiUpper sameSegFs 10 [py "A.arg", py "B.arg"] = .ok l ∧
    listSymbols asciiUpper sameSegFs 10 [py "B.arg", py "A.arg"] = .ok l ∧
    (rows [] [] [] l).map (fun r => (r.tag, r.seg, r.card)) =
      [(py "C", py "A", py "        C          TN"), (py "C", py "B", py "        C          TS")] := by
  refine ⟨_, rfl, ?_⟩
  decide +kernel

/-! ### Files given twice -/

open Classical in
/-- C106: giving all files a second time does not change the definitions listed; the lines in error
are counted twice. -/
theorem C106_twice (upper : Str → Str) (fs : FileSystem) (fuel : Nat) (files : List Str)
    (l : List ListLine) (hp : PlainFiles files) (h : listSymbols upper fs fuel files = .ok l) :
    ∃ srcs n l', Read fs files srcs ∧
      n = ((srcs.flatMap (·.2)).filter fun s => decide (InError upper s)).length ∧
      listSymbols upper fs fuel (files ++ files) = .ok l' ∧
      rows [] [] [] l' = rows [] [] [] l ∧
      l = layout none (rows [] [] [] l) ++ (if n = 0 then [] else [.errors n]) ∧
      l' = layout none (rows [] [] [] l) ++ if n = 0 then [] else [.errors (2 * n)] := by
  have hp' : PlainFiles (files ++ files) := fun f hm => hp f (by simpa using hm)
  obtain ⟨l', hl'⟩ : ∃ l', listSymbols upper fs fuel (files ++ files) = .ok l' := by
    unfold listSymbols at h ⊢
    split at h
    · cases h
    · rename_i hlen
      rw [if_neg (by rw [List.length_append]; omega)]
      cases hb : buildAll upper fs fuel files with
      | error e => rw [hb] at h; cases h
      | ok r =>
        obtain ⟨r', hb'⟩ := buildAll_subset hp' (fun f hm => by simpa using hm) hb
        obtain ⟨srcs', hr', e1, -⟩ := buildAll_ok_from (plainFiles_iff.1 hp') plain4_nil hb'
        simp only at e1
        obtain ⟨tl, htl⟩ := tableLines_total (t := r'.1) (by
          intro tag seg sub kind e he
          rw [recorded_iff, e1,
            buildSrcs_recorded upper srcs' [] (read_plain hr' hp') plain4_nil] at he
          rcases he with ⟨k, i, s, tt, -, rfl⟩ | ⟨he, -⟩
          · exact ⟨s.file, rfl⟩
          · cases he)
        rw [hb', py_bind_ok]
        simp only
        rw [htl]
        exact ⟨_, rfl⟩
  obtain ⟨srcs, hr, hs, hrow, -⟩ := C92_rows upper fs fuel files l hp h
  obtain ⟨srcs', hr', hs', hrow', -⟩ := C92_rows upper fs fuel _ l' hp' hl'
  obtain ⟨s0, n, hr0, hn, hlay⟩ := C104_layout upper fs fuel files l hp h
  obtain ⟨s0', n', hr0', hn', hlay'⟩ := C104_layout upper fs fuel _ l' hp' hl'
  obtain rfl := read_unique hr hr0
  obtain rfl := read_unique hr' hr0'
  have hr2 : Read fs (files ++ files) (srcs ++ srcs) := by
    refine ⟨by rw [List.map_append, hr.1], fun p hm => hr.2 p (by simpa using hm)⟩
  obtain rfl := read_unique hr' hr2
  have hrows : rows [] [] [] l' = rows [] [] [] l := by
    refine rows_ext hs' hs fun r => ?_
    rw [hrow, hrow']
    constructor
    · rintro ⟨k, i, s, hfd, hrest⟩
      obtain ⟨k', hk'⟩ := (finalDef_again _ _ _ _ _ _ _).1 ⟨k, hfd⟩
      exact ⟨k', i, s, hk', hrest⟩
    · rintro ⟨k, i, s, hfd, hrest⟩
      obtain ⟨k', hk'⟩ := (finalDef_again _ _ _ _ _ _ _).2 ⟨k, hfd⟩
      exact ⟨k', i, s, hk', hrest⟩
  have hnn : n' = 2 * n := by
    rw [hn, hn', List.flatMap_append, List.filter_append, List.length_append]
    omega
  refine ⟨srcs, n, l', hr, hn, hl', hrows, hlay, ?_⟩
  rw [hrows, hnn] at hlay'
  rw [hlay']
  congr 1
  by_cases h0 : n = 0
  · subst h0; rfl
  · rw [if_neg h0, if_neg (by omega)]

example : ∃ l', listSymbols asciiUpper symFs 10 [py "T.arg", py "T.arg"] = .ok l' ∧
    l' = [.sym (py "A"), .seg (py "T"), .sub (py "1"),
      .entry (py "simple") (py " ") (py "T") 2 (py "        A          TX"),
      .sub (py "2"), .entry (py "complex") (py "S") (py "T") 6 (py "        S,A        ASSIGN"),
      .errors 4] := by
  refine ⟨_, rfl, ?_⟩
  decide +kernel

end H800
