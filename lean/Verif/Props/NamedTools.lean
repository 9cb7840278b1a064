import Verif.Lemmas.Named
import Verif.Props.SymTools

/-!
Property C189: parse, check-symbols, list-symbols and find-symbols on files of any name, also such
whose segment is named like a kind of definition.
-/

namespace H800

open Spec

/-! ### The table of all files -/

theorem definedIn_lt {upper : Str → Str} {srcs : List (Str × List Src)} {k i : Nat} {s : Src}
    {tag tt seg sub kind : Str} (h : DefinedIn upper srcs k i s tag tt seg sub kind) :
    k < srcs.length := by
  obtain ⟨f, o, hg, -⟩ := h
  exact (List.getElem?_eq_some_iff.1 hg).1

theorem after_recorded {upper : Str → Str} {srcs : List (Str × List Src)} {t : Symtab}
    (h : After upper srcs srcs.length t) (tag seg sub kind : Str) (e : SymEntry) :
    lookup4 t tag seg sub kind = some e ↔ ∃ k i s tt,
      KeptDef upper srcs k i s tag tt seg sub kind ∧ e = entryOf (srcCard s) tt := by
  constructor
  · intro he
    obtain ⟨k, i, s, tt, -, hd, hn, hl, rfl⟩ := after_file h he
    exact ⟨k, i, s, tt, ⟨hd, hn, fun k' i' s' tt' hE hd' =>
      hl k' i' s' tt' hE (definedIn_lt hd') hd'⟩, rfl⟩
  · rintro ⟨k, i, s, tt, ⟨hd, hn, hl⟩, rfl⟩
    exact h.last k i s tag tt seg sub kind (definedIn_lt hd) hd hn
      fun k' i' s' tt' hE _ => hl k' i' s' tt' hE

theorem fold_all (bs : List BuildState) (r : Symtab × List Nat × Nat) :
    bs.foldl (fun r b => (b.symtab, r.2.1 ++ [b.errcount], r.2.2 + b.errcount)) r =
      (match bs.getLast? with | none => r.1 | some b => b.symtab,
        r.2.1 ++ bs.map (·.errcount), r.2.2 + (bs.map (·.errcount)).sum) := by
  induction bs generalizing r with
  | nil => simp
  | cons b bs ih =>
    rw [List.foldl_cons, ih]
    cases bs with
    | nil => simp
    | cons c bs =>
      rw [List.getLast?_cons_cons, List.getLast?_cons]
      simp [Nat.add_assoc]

open Classical in
theorem buildAll_named (upper : Str → Str) (fs : FileSystem) (files : List Str)
    (hne : ∀ f ∈ files, f ≠ []) (srcs : List (Str × List Src)) (hr : Read fs files srcs)
    (hs : ∀ k i, ¬ StopsAt upper srcs k i) :
    ∃ n t errs, (∀ m, n ≤ m → buildAll upper fs m files = .ok (t, errs, errs.sum)) ∧
      After upper srcs srcs.length t ∧ errs.length = srcs.length ∧
      ∀ (k : Nat) (f : Str) (o : List Src), srcs[k]? = some (f, o) →
        errs[k]? = some ((o.filter fun s => decide (InError upper s)).length +
          ((List.range o.length).filter fun i => decide (TakenIn upper srcs k i)).length) := by
  obtain ⟨n, bs, h1, h2, h3, h4⟩ := files_upto upper fs srcs
    (fun p hm => hne p.1 (hr.1 ▸ List.mem_map.2 ⟨p, hm, rfl⟩)) hr.2 srcs.length (Nat.le_refl _)
    fun k i _ => hs k i
  refine ⟨n, lastTable bs, bs.map (·.errcount), fun m hm => ?_, h2, by simp [h1], fun k f o hg => ?_⟩
  · have := h4 m hm _ (fun r : Symtab × List Nat × Nat => r.1)
      (fun r b => (b.symtab, r.2.1 ++ [b.errcount], r.2.2 + b.errcount)) ([], [], 0) rfl
      fun _ _ => rfl
    rw [List.take_length, hr.1, fold_all] at this
    unfold buildAll
    rw [this]
    congr 2
    · unfold lastTable
      cases bs.getLast? <;> rfl
    · simp
  · have hlt : k < bs.length := by rw [h1]; exact (List.getElem?_eq_some_iff.1 hg).1
    rw [List.getElem?_map, List.getElem?_eq_getElem hlt, Option.map_some,
      h3 k _ f o (List.getElem?_eq_getElem hlt) hg]

theorem buildAll_stop (upper : Str → Str) (fs : FileSystem) (files : List Str)
    (hne : ∀ f ∈ files, f ≠ []) (srcs : List (Str × List Src)) (hr : Read fs files srcs)
    (k i : Nat) (hs : StopsAt upper srcs k i) :
    ∃ n e, (e = PyErr.keyError ∨ e = PyErr.attributeError) ∧
      ∀ m, n ≤ m → buildAll upper fs m files = .error e ∧
        parseMain upper fs m files = .error e := by
  obtain ⟨n, e, he, h⟩ := files_stop upper fs srcs
    (fun p hm => hne p.1 (hr.1 ▸ List.mem_map.2 ⟨p, hm, rfl⟩)) hr.2 k i hs
  rw [hr.1] at h
  refine ⟨n, e, he, fun m hm => ⟨?_, ?_⟩⟩
  · exact h m hm _ (fun r : Symtab × List Nat × Nat => r.1)
      (fun r b => (b.symtab, r.2.1 ++ [b.errcount], r.2.2 + b.errcount)) ([], [], 0) rfl
      fun _ _ => rfl
  · have := h m hm _ (fun r : ParseState => r.symtab)
      (fun st b => { st with
        symtab := b.symtab, errcount := b.errcount, fileErrs := st.fileErrs ++ [b.errcount] })
      ⟨0, 0, 0, [], []⟩ rfl fun _ _ => rfl
    unfold parseMain
    have hlen : ¬ files.length < 1 := by
      have hlt : k < srcs.length := by
        obtain ⟨-, f, o, s, hg, -⟩ := hs
        exact (List.getElem?_eq_some_iff.1 hg).1
      rw [← hr.1, List.length_map]; omega
    rw [if_neg hlen]
    have h' : parseSymbols upper fs m files ⟨0, 0, 0, [], []⟩ = .error e := this
    rw [h']
    rfl

/-- Options of find-symbols that can be combined. -/
theorem find_run (upper : Str → Str) (extract : Str → List Str → Nat → List Str) (fs : FileSystem)
    (m : Nat) (b e z x : Bool) (symbol : Str) (files : List Str) (hf : files ≠ [])
    (ho : ¬ 2 ≤ [b, e, z, x].count true) :
    findSymbols upper extract fs m b e z x (symbol :: files) =
      (buildAll upper fs m files >>= fun r =>
        match (findSymbolDef extract r.1 symbol none b e z).1 with
        | .nothing => return none
        | .names [] => return none
        | .defs [] => return none
        | r => return some r) := by
  have hc : ((b && x) || (e && x) || (b && e) || (z && (b || e || x))) = false := by
    revert ho; cases b <;> cases e <;> cases z <;> cases x <;> simp
  cases files with
  | nil => exact absurd rfl hf
  | cons f files =>
    unfold findSymbols
    rw [if_neg (by rw [hc]; simp)]
    rfl

/-! ### The tools -/

/-- C189, in full: the four tools that build the symbol table end normally whenever all files can be
read. -/
def C189_statement : Prop := ∀ (upper : Str → Str) (extract : Str → List Str → Nat → List Str)
  (fs : FileSystem) (files : List Str) (srcs : List (Str × List Src)), files ≠ [] →
  (∀ f ∈ files, f ≠ []) → Read fs files srcs →
  ∃ n, ∀ m, n ≤ m → (∃ st, parseMain upper fs m files = .ok st) ∧
    (∀ complex, ∃ rep, checkSymbols upper extract fs m complex files = .ok rep) ∧
    (∃ l, listSymbols upper fs m files = .ok l) ∧
    ∀ symbol, ∃ r, findSymbols upper extract fs m false false false false (symbol :: files) = .ok r

/-- C189, what holds: they do if no line with EQUALS is taken. -/
theorem C189_completes_partial (upper : Str → Str) (extract : Str → List Str → Nat → List Str)
    (fs : FileSystem) (files : List Str) (srcs : List (Str × List Src)) (hf : files ≠ [])
    (hne : ∀ f ∈ files, f ≠ []) (hr : Read fs files srcs) (hs : ∀ k i, ¬ StopsAt upper srcs k i) :
    ∃ n, ∀ m, n ≤ m → (∃ st, parseMain upper fs m files = .ok st) ∧
      (∀ complex, ∃ rep, checkSymbols upper extract fs m complex files = .ok rep) ∧
      (∃ l, listSymbols upper fs m files = .ok l) ∧
      ∀ b e z x symbol, ¬ 2 ≤ [b, e, z, x].count true →
        ∃ r, findSymbols upper extract fs m b e z x (symbol :: files) = .ok r := by
  obtain ⟨n1, t, errs, h1, h2, -, -⟩ := buildAll_named upper fs files hne srcs hr hs
  obtain ⟨n2, bs, -, -, -, h4⟩ := files_upto upper fs srcs
    (fun p hm => hne p.1 (hr.1 ▸ List.mem_map.2 ⟨p, hm, rfl⟩)) hr.2 srcs.length (Nat.le_refl _)
    fun k i _ => hs k i
  obtain ⟨n3, h5⟩ := foldFiles_complete (σ := ParseState) hne (read_sources hr)
  have hlen : ¬ files.length < 1 := by
    cases files with
    | nil => exact absurd rfl hf
    | cons f fs => simp
  refine ⟨max n1 (max n2 n3), fun m hm => ⟨?_, ?_, ?_, ?_⟩⟩
  · have := h4 m (by omega) _ (fun r : ParseState => r.symtab)
      (fun st b => { st with
        symtab := b.symtab, errcount := b.errcount, fileErrs := st.fileErrs ++ [b.errcount] })
      ⟨0, 0, 0, [], []⟩ rfl fun _ _ => rfl
    rw [List.take_length, hr.1] at this
    unfold parseMain
    rw [if_neg hlen]
    have h' : parseSymbols upper fs m files ⟨0, 0, 0, [], []⟩ = .ok _ := this
    rw [h', py_bind_ok]
    exact ⟨_, h5 m (by omega) parseStep _⟩
  · intro complex
    unfold checkSymbols
    rw [if_neg hlen, h1 m (by omega)]
    exact ⟨_, rfl⟩
  · obtain ⟨tl, htl⟩ := tableLines_total (t := t) (by
      intro tag seg sub kind e he
      rw [recorded_iff, after_recorded h2] at he
      obtain ⟨k, i, s, tt, -, rfl⟩ := he
      exact ⟨s.file, rfl⟩)
    unfold listSymbols
    rw [if_neg hlen, h1 m (by omega), py_bind_ok]
    simp only
    rw [htl]
    exact ⟨_, rfl⟩
  · intro b e z x symbol ho
    rw [find_run _ _ _ _ _ _ _ _ _ _ hf ho, h1 m (by omega), py_bind_ok]
    simp only
    split <;> exact ⟨_, rfl⟩

/-- C189, what holds: if a line with EQUALS is taken, all four end with the same exception. -/
theorem C189_stops_partial (upper : Str → Str) (extract : Str → List Str → Nat → List Str)
    (fs : FileSystem) (files : List Str) (srcs : List (Str × List Src))
    (hne : ∀ f ∈ files, f ≠ []) (hr : Read fs files srcs) (k i : Nat) (hs : StopsAt upper srcs k i) :
    ∃ n err, (err = PyErr.keyError ∨ err = PyErr.attributeError) ∧ ∀ m, n ≤ m →
      parseMain upper fs m files = .error err ∧
      (∀ complex, checkSymbols upper extract fs m complex files = .error err) ∧
      listSymbols upper fs m files = .error err ∧
      ∀ b e z x symbol, ¬ 2 ≤ [b, e, z, x].count true →
        findSymbols upper extract fs m b e z x (symbol :: files) = .error err := by
  obtain ⟨n, err, he, h⟩ := buildAll_stop upper fs files hne srcs hr k i hs
  have hlt : 0 < files.length := by
    have hlt : k < srcs.length := by
      obtain ⟨-, f, o, s, hg, -⟩ := hs
      exact (List.getElem?_eq_some_iff.1 hg).1
    rw [← hr.1, List.length_map]; omega
  have hlen : ¬ files.length < 1 := by omega
  have hf : files ≠ [] := by rintro rfl; simp at hlt
  refine ⟨n, err, he, fun m hm => ⟨(h m hm).2, fun complex => ?_, ?_, fun b e z x symbol ho => ?_⟩⟩
  · unfold checkSymbols
    rw [if_neg hlen, (h m hm).1]
    rfl
  · unfold listSymbols
    rw [if_neg hlen, (h m hm).1]
    rfl
  · rw [find_run _ _ _ _ _ _ _ _ _ _ hf ho, (h m hm).1]
    rfl

open Classical in
/-- C189, what holds: otherwise check-symbols prints for each file the number of its lines in error
and of its lines taken, and for several files the sum of all that and of the undefined symbols. With
`--complex` the undefined symbols are those with a complex definition that is not taken and no simple
one that is not. -/
theorem C189_check_partial (upper : Str → Str) (extract : Str → List Str → Nat → List Str)
    (fs : FileSystem) (complex : Bool) (files : List Str) (srcs : List (Str × List Src))
    (hf : files ≠ []) (hne : ∀ f ∈ files, f ≠ []) (hr : Read fs files srcs)
    (hs : ∀ k i, ¬ StopsAt upper srcs k i) :
    ∃ n rep, (∀ m, n ≤ m → checkSymbols upper extract fs m complex files = .ok rep) ∧
      rep.fileErrs.length = srcs.length ∧
      (∀ (k : Nat) (f : Str) (o : List Src), srcs[k]? = some (f, o) →
        rep.fileErrs[k]? = some ((o.filter fun s => decide (InError upper s)).length +
          ((List.range o.length).filter fun i => decide (TakenIn upper srcs k i)).length)) ∧
      Increasing (rep.undefined.map (·.1)) ∧
      (∀ x, x ∈ rep.undefined.map (·.1) ↔ complex = true ∧
        (∃ k i s tt seg sub, DefinedIn upper srcs k i s x tt seg sub (py "complex") ∧
          ¬ TakenIn upper srcs k i) ∧
        ¬ ∃ k i s tt seg sub, DefinedIn upper srcs k i s x tt seg sub (py "simple") ∧
          ¬ TakenIn upper srcs k i) ∧
      rep.total = if 1 < files.length then some (rep.fileErrs.sum + rep.undefined.length)
        else none := by
  obtain ⟨n, t, errs, h1, h2, h3, h4⟩ := buildAll_named upper fs files hne srcs hr hs
  have hlen : ¬ files.length < 1 := by
    cases files with
    | nil => exact absurd rfl hf
    | cons f fs => simp
  have hhas : ∀ x kind, HasKind t x kind ↔ ∃ k i s tt seg sub,
      DefinedIn upper srcs k i s x tt seg sub kind ∧ ¬ TakenIn upper srcs k i := by
    intro x kind
    constructor
    · rintro ⟨seg, sub, e, he⟩
      rw [recorded_iff, after_recorded h2] at he
      obtain ⟨k, i, s, tt, hk, -⟩ := he
      exact ⟨k, i, s, tt, seg, sub, hk.1, hk.2.1⟩
    · rintro ⟨k, i, s, tt, seg, sub, hd, hn⟩
      cases hl : lookup4 t x seg sub kind with
      | some e => exact ⟨seg, sub, e, (recorded_iff _ _ _ _ _ _).2 hl⟩
      | none =>
        exfalso
        have hx := hd
        obtain ⟨-, o, hg, -, -⟩ := hx
        obtain ⟨k2, ⟨i2, hd2⟩, hl2⟩ := last_index (P := fun k => ∃ i s tt,
          DefinedIn upper srcs k i s x tt seg sub kind ∧ ¬ TakenIn upper srcs k i)
          (n := srcs.length) ⟨i, s, tt, hd, hn⟩ fun j ⟨_, _, _, hj, _⟩ => definedIn_lt hj
        have hb : ∃ n, ∀ j, (∃ s tt, DefinedIn upper srcs k2 j s x tt seg sub kind ∧
            ¬ TakenIn upper srcs k2 j) → j < n := by
          obtain ⟨s, tt, ⟨f, o, hg, -⟩, -⟩ := hd2
          refine ⟨o.length, ?_⟩
          rintro j ⟨s', tt', ⟨f', o', hg', -, hda⟩, -⟩
          rw [hg] at hg'; cases hg'
          exact (List.getElem?_eq_some_iff.1 hda.1).1
        obtain ⟨n, hn⟩ := hb
        obtain ⟨i3, ⟨s3, tt3, hd3, hnt⟩, hl3⟩ := last_index (P := fun j => ∃ s tt,
          DefinedIn upper srcs k2 j s x tt seg sub kind ∧ ¬ TakenIn upper srcs k2 j) hd2 hn
        have := h2.last k2 i3 s3 x tt3 seg sub kind (definedIn_lt hd3) hd3 hnt (by
          intro k'' i' s' tt' hE hk'' hd'
          by_contra hcon
          rcases hE with hE | ⟨rfl, hE⟩
          · exact hl2 k'' hE ⟨i', s', tt', hd', hcon⟩
          · exact hl3 i' hE ⟨s', tt', hd', hcon⟩)
        rw [hl] at this
        cases this
  refine ⟨n, ⟨errs, (checkSymbolTable t complex).map fun s =>
      (s, matchesOf (findSymbolDef extract t s none false false true)),
    if files.length > 1 then some (errs.sum + (checkSymbolTable t complex).length) else none⟩,
    fun m hm => ?_, h3, h4, ?_, ?_, ?_⟩
  · unfold checkSymbols
    rw [if_neg hlen, h1 m hm]
    rfl
  all_goals
    have hnd := (dicts_all (h1 n (le_refl n))).1
    obtain ⟨c1, c2, c3⟩ := C73_check t hnd
    have hu : ∀ l : List Str, ((l.map fun s =>
        (s, matchesOf (findSymbolDef extract t s none false false true))).map (·.1)) = l := by
      intro l; rw [List.map_map]; simp [Function.comp_def]
    simp only [hu]
  · cases complex
    · rw [c1]; exact .nil
    · exact c2
  · intro x
    cases complex
    · rw [c1]; simp
    · rw [c3, hhas, hhas]; simp
  · simp

open Classical in
/-- C189, what holds: otherwise list-symbols lists, sorted, the definitions that are not taken and
after which the same one is always taken. If there are lines in error or taken their number is
printed. -/
theorem C189_list_partial (upper : Str → Str) (fs : FileSystem) (files : List Str)
    (srcs : List (Str × List Src)) (hf : files ≠ []) (hne : ∀ f ∈ files, f ≠ [])
    (hr : Read fs files srcs) (hs : ∀ k i, ¬ StopsAt upper srcs k i) :
    ∃ n l, ∃ errs : List Nat, (∀ m, n ≤ m → listSymbols upper fs m files = .ok l) ∧
      (rows [] [] [] l).Pairwise Row.Before ∧
      (∀ r, r ∈ rows [] [] [] l ↔ ∃ k i s,
        KeptDef upper srcs k i s r.tag r.tagtype r.seg r.sub r.kind ∧
        BeforeFirst '.' s.file r.file ∧ r.line = s.num ∧ r.card = s.text.filter (· ≠ '\n')) ∧
      errs.length = srcs.length ∧
      (∀ (k : Nat) (f : Str) (o : List Src), srcs[k]? = some (f, o) →
        errs[k]? = some ((o.filter fun s => decide (InError upper s)).length +
          ((List.range o.length).filter fun i => decide (TakenIn upper srcs k i)).length)) ∧
      (∀ x, .errors x ∈ l ↔ 0 < x ∧ x = errs.sum) := by
  obtain ⟨n, t, errs, h1, h2, h3, h4⟩ := buildAll_named upper fs files hne srcs hr hs
  have hlen : ¬ files.length < 1 := by
    cases files with
    | nil => exact absurd rfl hf
    | cons f fs => simp
  obtain ⟨tl, ht⟩ := tableLines_total (t := t) (by
    intro tag seg sub kind e he
    rw [recorded_iff, after_recorded h2] at he
    obtain ⟨k, i, s, tt, -, rfl⟩ := he
    exact ⟨s.file, rfl⟩)
  refine ⟨n, tl ++ (if errs.sum > 0 then [.errors errs.sum] else []), errs, fun m hm => ?_, ?_, ?_,
    h3, h4, ?_⟩
  · unfold listSymbols
    rw [if_neg hlen, h1 m hm, py_bind_ok]
    simp only
    rw [ht]
    rfl
  all_goals
    obtain ⟨a, b, c, e⟩ := tableLines_rows ht [] [] []
      (if errs.sum > 0 then [ListLine.errors errs.sum] else [])
    have e0 : rows a b c (if errs.sum > 0 then [ListLine.errors errs.sum] else []) = [] := by
      split <;> rfl
    rw [e0, List.append_nil] at e
  · rw [e]; exact tableRows_sorted (dicts_all (h1 n (le_refl n)))
  · intro r
    rw [e, mem_tableRows]
    simp only [recorded_iff, after_recorded h2]
    constructor
    · rintro ⟨en, ⟨k, i, s, tt, hf, rfl⟩, hrow⟩
      have htt : r.tagtype = tt := by rw [hrow]; rfl
      refine ⟨k, i, s, htt ▸ hf, ?_, by rw [hrow]; rfl, by rw [hrow]; rfl⟩
      have : r.file = splitFirst s.file '.' := by rw [hrow]; rfl
      rw [this]; exact beforeFirst '.' s.file
    · rintro ⟨k, i, s, hf, hfile, hline, hcard⟩
      refine ⟨_, ⟨k, i, s, r.tagtype, hf, rfl⟩, ?_⟩
      obtain ⟨tag, seg, sub, kind, tt, file, line, card⟩ := r
      simp only at hfile hline hcard
      rw [← beforeFirst_unique hfile, hline, hcard]
      rfl
  · intro x
    rw [List.mem_append]
    have hno := tableLines_noerr ht x
    split
    · rename_i hpos
      simp only [List.mem_singleton, ListLine.errors.injEq, hno, false_or]
      exact ⟨fun e => ⟨e ▸ hpos, e⟩, fun e => e.2⟩
    · rename_i hpos
      simp only [List.not_mem_nil, hno, or_self, false_iff]
      rintro ⟨h1, h2⟩
      exact hpos (h2 ▸ h1)

/-- C189: without files whose segment is named like a kind nothing is taken, so that C84, C85, C92 and
C93 say what the tools do. -/
theorem C189_plain_partial (upper : Str → Str) (srcs : List (Str × List Src))
    (hp : PlainFiles (srcs.map (·.1))) (k i : Nat) : ¬ TakenIn upper srcs k i := by
  rintro ⟨s, tag, tt, seg, sub, kind, ⟨f, o, -, -, hd⟩, -, ⟨k', i', s', tt', sub', kind', -,
    ⟨f', o', hg', hb', -⟩⟩⟩
  obtain ⟨-, -, -, ⟨op, -, rfl⟩, -⟩ := hd
  have hkind : ¬ PlainSeg (kindOf op) := by
    rw [kindOf_eq]
    rcases symtypeOf_cases op with h | h
    · rw [h]; exact fun hp => hp.1 rfl
    · rw [h]; exact fun hp => hp.2 rfl
  exact hkind (hp f' (List.mem_map.2 ⟨_, List.mem_of_getElem? hg', rfl⟩) _ hb')

/-! ### Examples -/

/-- A file named "simple": a symbol defined twice, the second time with EQUALS. -/
def simpleFs : FileSystem := fun f =>
  if f = py "simple.arg" then
    some (py "        A          TN\n        B          ASSIGN\n        A          EQUALS\n")
  else if f = py "complex.arg" then
    some (py "        A          TN\n        A          ASSIGN\n        A          TX\n")
  else none

/-- The lines of `simple.arg`. -/
def simpleLines : List Src :=
  [⟨py "simple.arg", 1, py "        A          TN\n"⟩,
    ⟨py "simple.arg", 2, py "        B          ASSIGN\n"⟩,
    ⟨py "simple.arg", 3, py "        A          EQUALS\n"⟩]

/-- The lines of `complex.arg`. -/
def complexLines : List Src :=
  [⟨py "complex.arg", 1, py "        A          TN\n"⟩,
    ⟨py "complex.arg", 2, py "        A          ASSIGN\n"⟩,
    ⟨py "complex.arg", 3, py "        A          TX\n"⟩]

theorem simpleFs_simple : Expands simpleFs (py "simple.arg") simpleLines := by
  refine ⟨_, rfl, ?_⟩
  have : ∀ {text : Str} (ls : List Str), readlines text = ls →
      Expand simpleFs (py "simple.arg") 1 ls simpleLines →
      Expand simpleFs (py "simple.arg") 1 (readlines text) simpleLines := fun ls h1 h2 => h1 ▸ h2
  refine this (simpleLines.map (·.text)) (by decide) ?_
  iterate 3 refine .plain (by decide) (by decide) ?_
  exact .nil _ _

theorem simpleFs_complex : Expands simpleFs (py "complex.arg") complexLines := by
  refine ⟨_, rfl, ?_⟩
  have : ∀ {text : Str} (ls : List Str), readlines text = ls →
      Expand simpleFs (py "complex.arg") 1 ls complexLines →
      Expand simpleFs (py "complex.arg") 1 (readlines text) complexLines := fun ls h1 h2 => h1 ▸ h2
  refine this (complexLines.map (·.text)) (by decide) ?_
  iterate 3 refine .plain (by decide) (by decide) ?_
  exact .nil _ _

theorem simpleFs_read : Read simpleFs [py "simple.arg"] [(py "simple.arg", simpleLines)] := by
  refine ⟨rfl, fun p hp => ?_⟩
  rw [List.mem_singleton] at hp
  subst hp
  exact simpleFs_simple

theorem complexFs_read : Read simpleFs [py "complex.arg"] [(py "complex.arg", complexLines)] := by
  refine ⟨rfl, fun p hp => ?_⟩
  rw [List.mem_singleton] at hp
  subst hp
  exact simpleFs_complex

theorem simple_key : ∀ m, 10 ≤ m → parseMain asciiUpper simpleFs m [py "simple.arg"] =
    .error .keyError := by
  intro m hm
  obtain ⟨k, rfl⟩ : ∃ k, m = k + 10 := ⟨m - 10, by omega⟩
  rfl

/-- C189 is false: the second definition of a symbol in a file named "simple" with EQUALS is a
KeyError. -/
theorem C189_refuted : ¬ C189_statement := by
  intro h
  obtain ⟨n, hn⟩ := h asciiUpper (fun _ _ _ => []) simpleFs [py "simple.arg"] _ (by decide)
    (by decide) simpleFs_read
  obtain ⟨⟨st, h1⟩, -⟩ := hn (max n 10) (by omega)
  rw [simple_key _ (by omega)] at h1
  cases h1

theorem simple_defs :
    DefinesAt asciiUpper simpleLines 0 simpleLines[0] (py "A") (py " ") (py "1") (py "simple") ∧
    DefinesAt asciiUpper simpleLines 1 simpleLines[1] (py "B") (py " ") (py "1") (py "complex") ∧
    DefinesAt asciiUpper simpleLines 2 simpleLines[2] (py "A") (py " ") (py "1") (py "simple") ∧
    HasOp simpleLines[2] (py "EQUALS") := by
  have h2 : actionOf asciiUpper (srcCard simpleLines[2]) = .def_ (py "A") (py " ") (py "EQUALS") := rfl
  refine ⟨(definesAt_iff _ _ _ _ _ _ _ _).2 ⟨rfl, py "TN", ?_, ?_, ?_⟩,
    (definesAt_iff _ _ _ _ _ _ _ _).2 ⟨rfl, py "ASSIGN", ?_, ?_, ?_⟩,
    (definesAt_iff _ _ _ _ _ _ _ _).2 ⟨rfl, py "EQUALS", h2, ?_, ?_⟩,
    ((action_def _ _ _ _ _).1 h2).2.2⟩ <;> rfl

theorem complex_defs :
    DefinesAt asciiUpper complexLines 0 complexLines[0] (py "A") (py " ") (py "1") (py "simple") ∧
    DefinesAt asciiUpper complexLines 1 complexLines[1] (py "A") (py " ") (py "1") (py "complex") ∧
    DefinesAt asciiUpper complexLines 2 complexLines[2] (py "A") (py " ") (py "1") (py "simple") := by
  refine ⟨(definesAt_iff _ _ _ _ _ _ _ _).2 ⟨rfl, py "TN", ?_, ?_, ?_⟩,
    (definesAt_iff _ _ _ _ _ _ _ _).2 ⟨rfl, py "ASSIGN", ?_, ?_, ?_⟩,
    (definesAt_iff _ _ _ _ _ _ _ _).2 ⟨rfl, py "TX", ?_, ?_, ?_⟩⟩ <;> rfl

/-- C189, an example: the third line of `simple.arg` is such a line, and list-symbols ends so too. -/
example : StopsAt asciiUpper [(py "simple.arg", simpleLines)] 0 2 ∧
    listSymbols asciiUpper simpleFs 5 [py "simple.arg"] = .error .keyError := by
  obtain ⟨h0, -, h2, ho⟩ := simple_defs
  have hd : ∀ {i s tag tt sub kind}, DefinesAt asciiUpper simpleLines i s tag tt sub kind →
      DefinedIn asciiUpper [(py "simple.arg", simpleLines)] 0 i s tag tt (py "simple") sub kind :=
    fun h => ⟨_, _, rfl, by have := beforeFirst '.' (py "simple.arg"); exact this, h⟩
  exact ⟨⟨⟨_, _, _, _, _, _, hd h2, ⟨0, 0, _, _, _, Or.inr ⟨rfl, by decide⟩, hd h0⟩,
    ⟨0, 0, _, _, _, _, Or.inr ⟨rfl, by decide⟩, hd h0⟩⟩, _, _, _, rfl, rfl, ho⟩, rfl⟩

/-- C189, an example: in `complex.arg` the second line is taken, although it is the first definition
of the symbol with its kind. No line stops the tools; check-symbols reports one error and the symbol
is not listed as complex. -/
example : TakenIn asciiUpper [(py "complex.arg", complexLines)] 0 1 ∧
    (∀ k i, ¬ StopsAt asciiUpper [(py "complex.arg", complexLines)] k i) ∧
    (∃ rep, checkSymbols asciiUpper (fun _ _ _ => []) simpleFs 5 true [py "complex.arg"] = .ok rep ∧
      rep.fileErrs = [1]) ∧
    ∃ l, listSymbols asciiUpper simpleFs 5 [py "complex.arg"] = .ok l ∧
      (rows [] [] [] l).map (fun r => (r.kind, r.line)) = [(py "simple", 3)] := by
  obtain ⟨h0, h1, -⟩ := complex_defs
  have hd : ∀ {i s tag tt sub kind}, DefinesAt asciiUpper complexLines i s tag tt sub kind →
      DefinedIn asciiUpper [(py "complex.arg", complexLines)] 0 i s tag tt (py "complex") sub kind :=
    fun h => ⟨_, _, rfl, by have := beforeFirst '.' (py "complex.arg"); exact this, h⟩
  refine ⟨⟨_, _, _, _, _, _, hd h1, ⟨0, 0, _, _, _, Or.inr ⟨rfl, by decide⟩, hd h0⟩,
    ⟨0, 0, _, _, _, _, Or.inr ⟨rfl, by decide⟩, hd h0⟩⟩, ?_, ⟨_, rfl, by decide +kernel⟩,
    ⟨_, rfl, by decide +kernel⟩⟩
  rintro k i hst
  obtain ⟨n, e, he, h⟩ := C189_stops_partial asciiUpper (fun _ _ _ => []) simpleFs [py "complex.arg"]
    _ (by decide) complexFs_read k i hst
  have h3 := (h (n + 5) (by omega)).2.2.1
  have h4 : ∃ l, listSymbols asciiUpper simpleFs (n + 5) [py "complex.arg"] = .ok l := ⟨_, rfl⟩
  obtain ⟨l, h4⟩ := h4
  rw [h4] at h3
  cases h3

end H800
