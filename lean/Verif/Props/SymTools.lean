import Verif.Lemmas.SymTools
import Verif.Props.Symbols

/-!
Properties C84, C85, C92, C93: parse, check-symbols, list-symbols and find-symbols. Segment names are
taken not to be the names of kinds (`PlainFiles`), see C71.
-/

namespace H800

open Spec

/-! ### Examples used below -/

/-- Two files: the first with an error, the second redefining nothing. -/
def twoFs : FileSystem := fun f =>
  if f = py "A.arg" then some (py "        b          TN\n        C          ASSIGN\n")
  else if f = py "B.arg" then some (py "        D          TN\n")
  else none

/-- The lines of the first file. -/
def twoA : List Src :=
  [⟨py "A.arg", 1, py "        b          TN\n"⟩, ⟨py "A.arg", 2, py "        C          ASSIGN\n"⟩]

/-- The lines of the second file. -/
def twoB : List Src := [⟨py "B.arg", 1, py "        D          TN\n"⟩]

theorem twoFs_read : Read twoFs [py "A.arg", py "B.arg"]
    [(py "A.arg", twoA), (py "B.arg", twoB)] := by
  refine ⟨rfl, ?_⟩
  intro p hp
  simp only [List.mem_cons, List.not_mem_nil, or_false] at hp
  rcases hp with rfl | rfl
  · refine ⟨_, rfl, ?_⟩
    have : ∀ {text : Str} (ls : List Str), readlines text = ls →
        Expand twoFs (py "A.arg") 1 ls twoA →
        Expand twoFs (py "A.arg") 1 (readlines text) twoA := fun ls h1 h2 => h1 ▸ h2
    refine this (twoA.map (·.text)) (by decide) ?_
    iterate 2 refine .plain (by decide) (by decide) ?_
    exact .nil _ _
  · refine ⟨_, rfl, ?_⟩
    have : ∀ {text : Str} (ls : List Str), readlines text = ls →
        Expand twoFs (py "B.arg") 1 ls twoB →
        Expand twoFs (py "B.arg") 1 (readlines text) twoB := fun ls h1 h2 => h1 ▸ h2
    refine this (twoB.map (·.text)) (by decide) ?_
    iterate 1 refine .plain (by decide) (by decide) ?_
    exact .nil _ _

theorem twoFs_plain : PlainFiles [py "A.arg", py "B.arg"] := by
  rw [plainFiles_iff]
  intro f hf
  simp only [List.mem_cons, List.not_mem_nil, or_false] at hf
  rcases hf with rfl | rfl <;> (unfold PlainSeg; decide)

theorem read_unique {fs : FileSystem} {files : List Str} {a b : List (Str × List Src)}
    (ha : Read fs files a) (hb : Read fs files b) : a = b := by
  obtain ⟨rfl, ha⟩ := ha
  obtain ⟨h, hb⟩ := hb
  induction a generalizing b with
  | nil => cases b with
    | nil => rfl
    | cons p b => cases h
  | cons p a ih =>
    cases b with
    | nil => cases h
    | cons q b =>
      simp only [List.map_cons, List.cons.injEq] at h
      have hpq : p = q := by
        obtain ⟨p1, p2⟩ := p
        obtain ⟨q1, q2⟩ := q
        obtain rfl : q1 = p1 := h.1
        have := expands_unique (ha (q1, p2) List.mem_cons_self) (hb (q1, q2) List.mem_cons_self)
        exact congrArg (Prod.mk q1) this
      rw [hpq, ih (fun x hx => ha x (List.mem_cons_of_mem _ hx)) h.2
        (fun x hx => hb x (List.mem_cons_of_mem _ hx))]

theorem read_plain {fs : FileSystem} {files : List Str} {srcs : List (Str × List Src)}
    (h : Read fs files srcs) (hp : PlainFiles files) :
    ∀ p ∈ srcs, PlainSeg (splitFirst p.1 '.') := by
  intro p hm
  rw [plainFiles_iff] at hp
  exact hp p.1 (h.1 ▸ List.mem_map.2 ⟨p, hm, rfl⟩)

theorem plain4_nil : Plain4 ([] : Symtab) := fun _ => ⟨rfl, rfl⟩

/-! ### parse -/

open Classical in
/-- C84, in full: the number of errors printed at the end is that of all files: lines in error for
the symbol table and invalid instructions. -/
def C84_statement : Prop := ∀ (upper : Str → Str) (fs : FileSystem) (fuel : Nat)
  (files : List Str) (st : ParseState) (srcs : List (Str × List Src)), PlainFiles files →
  parseMain upper fs fuel files = .ok st → Read fs files srcs →
  st.errcount = ((srcs.flatMap (·.2)).filter fun s => decide (InError upper s)).length +
    ((srcs.flatMap (·.2)).filter fun s => decide (BadInstr s)).length

open Classical in
/-- C84, what holds: the number printed at the end is the number of lines in error of the last file
and of invalid instructions of all files. The numbers printed per file are right, and so is the
number of lines. -/
theorem C84_last_partial (upper : Str → Str) (fs : FileSystem) (fuel : Nat)
    (files : List Str) (st : ParseState) (hp : PlainFiles files)
    (h : parseMain upper fs fuel files = .ok st) :
    ∃ srcs last, Read fs files srcs ∧ srcs.getLast? = some last ∧
      st.fileErrs = srcs.map (fun p => (p.2.filter fun s => decide (InError upper s)).length) ∧
      st.linecount = (srcs.flatMap (·.2)).length ∧
      st.instrcount = ((srcs.flatMap (·.2)).filter fun s => decide (∃ i, HasInstr s i)).length ∧
      st.errcount = (last.2.filter fun s => decide (InError upper s)).length +
        ((srcs.flatMap (·.2)).filter fun s => decide (BadInstr s)).length := by
  unfold parseMain at h
  split at h
  · cases h
  · rename_i hlen
    cases hs : parseSymbols upper fs fuel files ⟨0, 0, 0, [], []⟩ with
    | error e => rw [hs] at h; cases h
    | ok st1 =>
      rw [hs, py_bind_ok] at h
      obtain ⟨srcs, hr, -, -, h3, h4, h5, h6⟩ := parseSymbols_ok (plainFiles_iff.1 hp) plain4_nil hs
      obtain ⟨out, ho, hfold⟩ := foldFiles_ok h
      obtain rfl := sources_unique ho (read_sources hr)
      obtain ⟨k1, k2, k3, k4, k5⟩ := parseFold_spec ((srcs.flatMap (·.2)).map srcCard) st1
      rw [← hfold] at k1 k2 k3 k4 k5
      have hsome : ∀ s, (fun c => (instOf c).isSome) (srcCard s) = true ↔ ∃ i, HasInstr s i := by
        intro s
        simp only [Option.isSome_iff_exists, instOf_iff]
      cases hl : srcs.getLast? with
      | none =>
        rw [List.getLast?_eq_none_iff] at hl
        rw [← hr.1, hl] at hlen
        exact absurd (by simp) hlen
      | some last =>
        rw [hl] at h6
        simp only at h3 h4 h5
        refine ⟨srcs, last, hr, hl, ?_, ?_, ?_, ?_⟩
        · rw [k5, h5]; simp
        · rw [k1, h3]; simp
        · rw [k2, h4, count_src (p := fun c => (instOf c).isSome) hsome]; simp
        · rw [k3, h6, count_src badInst_iff]; rfl

open Classical in
/-- C84 holds for one file. -/
theorem C84_single_partial (upper : Str → Str) (fs : FileSystem) (fuel : Nat)
    (file : Str) (st : ParseState) (hp : PlainFiles [file])
    (h : parseMain upper fs fuel [file] = .ok st) :
    ∃ out, Expands fs file out ∧
      st.errcount = (out.filter fun s => decide (InError upper s)).length +
        (out.filter fun s => decide (BadInstr s)).length := by
  obtain ⟨srcs, last, ⟨h1, h2⟩, hl, -, -, -, he⟩ := C84_last_partial upper fs fuel [file] st hp h
  match srcs, h1 with
  | [p], h1 =>
    simp only [List.map_cons, List.map_nil, List.cons.injEq, and_true] at h1
    simp only [List.getLast?_singleton, Option.some.injEq] at hl
    subst hl
    refine ⟨p.2, h1 ▸ h2 p List.mem_cons_self, ?_⟩
    simpa using he

/-- C84: parse gets to its end when the files can be read. -/
theorem C84_completes_partial (upper : Str → Str) (fs : FileSystem) (files : List Str)
    (hf : files ≠ []) (hne : ∀ f ∈ files, f ≠ []) (hp : PlainFiles files)
    (srcs : List (Str × List Src)) (hr : Read fs files srcs) :
    ∃ n st, ∀ m, n ≤ m → parseMain upper fs m files = .ok st := by
  obtain ⟨n1, hn1⟩ := parseSymbols_complete (upper := upper) (fs := fs) (srcs := srcs)
    (fun p hm => hne p.1 (hr.1 ▸ List.mem_map.2 ⟨p, hm, rfl⟩)) (read_plain hr hp) hr.2
  obtain ⟨st1, h1⟩ := hn1 ⟨0, 0, 0, [], []⟩ plain4_nil
  obtain ⟨n2, hn2⟩ := foldFiles_complete (σ := ParseState) hne (read_sources hr)
  refine ⟨max n1 n2, ((srcs.flatMap (·.2)).map srcCard).foldl parseStep st1, fun m hm => ?_⟩
  unfold parseMain
  have hlen : ¬ files.length < 1 := by
    cases files with
    | nil => exact absurd rfl hf
    | cons f fs => simp
  have := h1 m (by omega)
  rw [hr.1] at this
  rw [if_neg hlen, this, py_bind_ok]
  exact hn2 m (by omega) parseStep st1

theorem twoA_inError : InError asciiUpper ⟨py "A.arg", 1, py "        b          TN\n"⟩ := by
  rw [← action_err]
  exact ⟨.case, py "b", none, rfl⟩

/-- C84 is false: the error of the first of two files is forgotten. -/
theorem C84_refuted : ¬ C84_statement := by
  intro h
  classical
  have hm : ∃ st, parseMain asciiUpper twoFs 10 [py "A.arg", py "B.arg"] = .ok st ∧
      st.errcount = 0 := ⟨_, rfl, by decide +kernel⟩
  obtain ⟨st, h1, h2⟩ := hm
  have h3 := h asciiUpper twoFs 10 _ st _ twoFs_plain h1 twoFs_read
  rw [h2] at h3
  have : ((([(py "A.arg", twoA), (py "B.arg", twoB)] : List (Str × List Src)).flatMap (·.2)).filter
      fun s => decide (InError asciiUpper s)).length = 0 := by omega
  rw [List.length_eq_zero_iff, List.filter_eq_nil_iff] at this
  have hin : (⟨py "A.arg", 1, py "        b          TN\n"⟩ : Src) ∈
      (([(py "A.arg", twoA), (py "B.arg", twoB)] : List (Str × List Src)).flatMap (·.2)) := by
    decide
  exact this _ hin (by simpa using twoA_inError)

/-- C84, an example: the errors of the files are 1 and 0, the total 0. -/
example : ∃ st, parseMain asciiUpper twoFs 10 [py "A.arg", py "B.arg"] = .ok st ∧
    st.fileErrs = [1, 0] ∧ st.errcount = 0 ∧ st.linecount = 3 := by
  refine ⟨_, rfl, ?_⟩
  decide +kernel

/-! ### check-symbols -/

open Classical in
/-- C85: check-symbols prints the number of lines in error of each file; with `--complex` it reports,
sorted and each once, the symbols that have a complex definition in some file and a simple one in
none, otherwise none; and for several files it prints the sum of all that as the total. -/
theorem C85_total (upper : Str → Str) (extract : Str → List Str → Nat → List Str)
    (fs : FileSystem) (fuel : Nat) (complex : Bool) (files : List Str) (rep : SymReport)
    (hp : PlainFiles files) (h : checkSymbols upper extract fs fuel complex files = .ok rep) :
    ∃ srcs, Read fs files srcs ∧
      rep.fileErrs = srcs.map (fun p => (p.2.filter fun s => decide (InError upper s)).length) ∧
      Increasing (rep.undefined.map (·.1)) ∧
      (∀ n, n ∈ rep.undefined.map (·.1) ↔ complex = true ∧
        (∃ k i s tt seg sub, DefinedIn upper srcs k i s n tt seg sub (py "complex")) ∧
        ¬ ∃ k i s tt seg sub, DefinedIn upper srcs k i s n tt seg sub (py "simple")) ∧
      rep.total = if 1 < files.length then some
        (((srcs.flatMap (·.2)).filter fun s => decide (InError upper s)).length +
          rep.undefined.length) else none := by
  unfold checkSymbols at h
  split at h
  · cases h
  · cases hb : buildAll upper fs fuel files with
    | error e => rw [hb] at h; cases h
    | ok r =>
      obtain ⟨t, errs, tot⟩ := r
      rw [hb, py_bind_ok] at h
      cases h
      obtain ⟨srcs, hr, h1, -, h3, h4⟩ := buildAll_ok_from (plainFiles_iff.1 hp) plain4_nil hb
      simp only [List.nil_append, Nat.zero_add] at h1 h3 h4
      have hnd := (dicts_all hb).1
      obtain ⟨c1, c2, c3⟩ := C73_check t hnd
      have hu : ∀ l : List Str, ((l.map fun s =>
          (s, matchesOf (findSymbolDef extract t s none false false true))).map (·.1)) = l := by
        intro l; rw [List.map_map]; simp [Function.comp_def]
      refine ⟨srcs, hr, h3, ?_, ?_, ?_⟩
      · simp only [hu]
        cases complex
        · rw [c1]; exact List.Pairwise.nil
        · exact c2
      · intro n
        simp only [hu]
        cases complex
        · rw [c1]; simp
        · rw [c3, h1, buildSrcs_has upper srcs (read_plain hr hp),
            buildSrcs_has upper srcs (read_plain hr hp)]
          simp
      · simp only [h4, List.length_map]

/-- C85: the suggestions for a reported symbol are at most ten symbols with a simple definition,
whatever matcher is used that returns at most `limit` of its choices. -/
theorem C85_matches (upper : Str → Str) (extract : Str → List Str → Nat → List Str)
    (hex : ∀ q cs n, (extract q cs n).length ≤ n ∧ ∀ x ∈ extract q cs n, x ∈ cs)
    (fs : FileSystem) (fuel : Nat) (complex : Bool) (files : List Str) (rep : SymReport)
    (hp : PlainFiles files) (h : checkSymbols upper extract fs fuel complex files = .ok rep) :
    ∃ srcs, Read fs files srcs ∧ ∀ p ∈ rep.undefined, p.2.length ≤ 10 ∧ ∀ x ∈ p.2,
      ∃ k i s tt seg sub, DefinedIn upper srcs k i s x tt seg sub (py "simple") := by
  unfold checkSymbols at h
  split at h
  · cases h
  · cases hb : buildAll upper fs fuel files with
    | error e => rw [hb] at h; cases h
    | ok r =>
      obtain ⟨t, errs, tot⟩ := r
      rw [hb, py_bind_ok] at h
      cases h
      obtain ⟨srcs, hr, h1, -⟩ := buildAll_ok_from (plainFiles_iff.1 hp) plain4_nil hb
      refine ⟨srcs, hr, ?_⟩
      intro p hpm
      obtain ⟨s, -, rfl⟩ := List.mem_map.1 hpm
      obtain ⟨l, hl, h10, hall⟩ := C77_fuzzy extract hex t s none
      simp only [hl, matchesOf]
      refine ⟨h10, fun x hx => ?_⟩
      simp only at h1
      rw [← buildSrcs_has upper srcs (read_plain hr hp), ← h1]
      exact hall x hx

/-- C85: check-symbols gets to its end when the files can be read. -/
theorem C85_completes (upper : Str → Str) (extract : Str → List Str → Nat → List Str)
    (fs : FileSystem) (complex : Bool) (files : List Str)
    (hf : files ≠ []) (hne : ∀ f ∈ files, f ≠ []) (hp : PlainFiles files)
    (srcs : List (Str × List Src)) (hr : Read fs files srcs) :
    ∃ n rep, ∀ m, n ≤ m → checkSymbols upper extract fs m complex files = .ok rep := by
  obtain ⟨n, hn⟩ := buildAll_complete_from (upper := upper) (fs := fs) (srcs := srcs)
    (fun p hm => hne p.1 (hr.1 ▸ List.mem_map.2 ⟨p, hm, rfl⟩)) (read_plain hr hp) hr.2
  obtain ⟨r, h1⟩ := hn ([], [], 0) plain4_nil
  refine ⟨n, ⟨r.2.1, (checkSymbolTable r.1 complex).map fun s =>
      (s, matchesOf (findSymbolDef extract r.1 s none false false true)),
    if files.length > 1 then some (r.2.2 + (checkSymbolTable r.1 complex).length) else none⟩,
    fun m hm => ?_⟩
  have hlen : ¬ files.length < 1 := by
    cases files with
    | nil => exact absurd rfl hf
    | cons f fs => simp
  have := h1 m hm
  rw [hr.1] at this
  unfold checkSymbols buildAll
  rw [if_neg hlen, this]
  rfl

example : ∃ rep, checkSymbols asciiUpper (fun _ cs n => cs.take n) twoFs 10 true
    [py "A.arg", py "B.arg"] = .ok rep ∧ rep.fileErrs = [1, 0] ∧
    rep.undefined = [(py "C", [py "D"])] ∧ rep.total = some 2 := by
  refine ⟨_, rfl, ?_⟩
  decide +kernel

/-! ### list-symbols -/

open Classical in
/-- C92: list-symbols lists the definitions in the files sorted by tag, segment, subsegment and kind;
there is a line for each definition that no later line replaces, with the tag type, file name up to
the first dot, line number and text of its line. If there are lines in error their number is
printed. -/
theorem C92_rows (upper : Str → Str) (fs : FileSystem) (fuel : Nat) (files : List Str)
    (l : List ListLine) (hp : PlainFiles files) (h : listSymbols upper fs fuel files = .ok l) :
    ∃ srcs, Read fs files srcs ∧ (rows [] [] [] l).Pairwise Row.Before ∧
      (∀ r, r ∈ rows [] [] [] l ↔ ∃ k i s,
        FinalDef upper srcs k i s r.tag r.tagtype r.seg r.sub r.kind ∧
        BeforeFirst '.' s.file r.file ∧ r.line = s.num ∧ r.card = s.text.filter (· ≠ '\n')) ∧
      (∀ n, .errors n ∈ l ↔ 0 < n ∧
        n = ((srcs.flatMap (·.2)).filter fun s => decide (InError upper s)).length) := by
  unfold listSymbols at h
  split at h
  · cases h
  · cases hb : buildAll upper fs fuel files with
    | error e => rw [hb] at h; cases h
    | ok r =>
      obtain ⟨t, errs, tot⟩ := r
      rw [hb, py_bind_ok] at h
      simp only at h
      cases ht : tableLines t with
      | error e => rw [ht] at h; cases h
      | ok tl =>
        rw [ht, py_bind_ok] at h
        cases h
        obtain ⟨srcs, hr, h1, -, -, h4⟩ := buildAll_ok_from (plainFiles_iff.1 hp) plain4_nil hb
        simp only [Nat.zero_add] at h1 h4
        obtain ⟨a, b, c, e⟩ := tableLines_rows ht [] [] []
          (if tot > 0 then [ListLine.errors tot] else [])
        have e0 : rows a b c (if tot > 0 then [ListLine.errors tot] else []) = [] := by
          split <;> rfl
        rw [e0, List.append_nil] at e
        refine ⟨srcs, hr, ?_, ?_, ?_⟩
        · rw [e]; exact tableRows_sorted (dicts_all hb)
        · intro r
          rw [e, mem_tableRows]
          simp only [recorded_iff, h1,
            buildSrcs_recorded upper srcs [] (read_plain hr hp) plain4_nil]
          constructor
          · rintro ⟨en, ⟨k, i, s, tt, hf, rfl⟩ | ⟨hf, -⟩, hrow⟩
            · have htt : r.tagtype = tt := by rw [hrow]; rfl
              refine ⟨k, i, s, htt ▸ hf, ?_, by rw [hrow]; rfl, by rw [hrow]; rfl⟩
              have : r.file = splitFirst s.file '.' := by rw [hrow]; rfl
              rw [this]; exact beforeFirst '.' s.file
            · cases hf
          · rintro ⟨k, i, s, hf, hfile, hline, hcard⟩
            refine ⟨_, Or.inl ⟨k, i, s, r.tagtype, hf, rfl⟩, ?_⟩
            obtain ⟨tag, seg, sub, kind, tt, file, line, card⟩ := r
            simp only at hfile hline hcard
            rw [← beforeFirst_unique hfile, hline, hcard]
            rfl
        · intro n
          rw [List.mem_append]
          have hno := tableLines_noerr ht n
          rw [h4]
          split
          · rename_i hpos
            simp only [List.mem_singleton, ListLine.errors.injEq, hno, false_or]
            exact ⟨fun e => ⟨e ▸ hpos, e⟩, fun e => e.2⟩
          · rename_i hpos
            simp only [List.not_mem_nil, hno, or_self, false_iff]
            rintro ⟨h1, h2⟩
            exact hpos (h2 ▸ h1)

/-- C92: list-symbols gets to its end when the files can be read. -/
theorem C92_completes (upper : Str → Str) (fs : FileSystem) (files : List Str)
    (hf : files ≠ []) (hne : ∀ f ∈ files, f ≠ []) (hp : PlainFiles files)
    (srcs : List (Str × List Src)) (hr : Read fs files srcs) :
    ∃ n l, ∀ m, n ≤ m → listSymbols upper fs m files = .ok l := by
  obtain ⟨n, hn⟩ := buildAll_complete_from (upper := upper) (fs := fs) (srcs := srcs)
    (fun p hm => hne p.1 (hr.1 ▸ List.mem_map.2 ⟨p, hm, rfl⟩)) (read_plain hr hp) hr.2
  obtain ⟨r, h1⟩ := hn ([], [], 0) plain4_nil
  have hlen : ¬ files.length < 1 := by
    cases files with
    | nil => exact absurd rfl hf
    | cons f fs => simp
  rw [hr.1] at h1
  have hb : buildAll upper fs n files = .ok r := h1 n (le_refl n)
  obtain ⟨srcs', hr', e1, -⟩ := buildAll_ok_from (plainFiles_iff.1 hp) plain4_nil hb
  simp only at e1
  obtain ⟨tl, htl⟩ := tableLines_total (t := r.1) (by
    intro tag seg sub kind e he
    rw [recorded_iff, e1,
      buildSrcs_recorded upper srcs' [] (read_plain hr' hp) plain4_nil] at he
    rcases he with ⟨k, i, s, tt, -, rfl⟩ | ⟨he, -⟩
    · exact ⟨s.file, rfl⟩
    · cases he)
  refine ⟨n, tl ++ (if r.2.2 > 0 then [.errors r.2.2] else []), fun m hm => ?_⟩
  unfold listSymbols
  have : buildAll upper fs m files = .ok r := h1 m hm
  rw [if_neg hlen, this, py_bind_ok]
  simp only
  rw [htl]
  rfl

example : ∃ l, listSymbols asciiUpper symFs 10 [py "T.arg"] = .ok l ∧
    rows [] [] [] l =
      [⟨py "A", py "T", py "1", py "simple", py " ", py "T", 2, py "        A          TX"⟩,
       ⟨py "A", py "T", py "2", py "complex", py "S", py "T", 6, py "        S,A        ASSIGN"⟩] ∧
    l.getLast? = some (.errors 2) := by
  refine ⟨_, rfl, ?_⟩
  decide +kernel

/-! ### find-symbols -/

/-- C93: the options that cannot be combined, and too few arguments, are refused. -/
theorem C93_refused (upper : Str → Str) (extract : Str → List Str → Nat → List Str)
    (fs : FileSystem) (fuel : Nat) (begin end_ fuzzy exact_ : Bool) (args : List Str)
    (h : (2 ≤ [begin, end_, fuzzy, exact_].count true) ∨ args.length < 2) :
    findSymbols upper extract fs fuel begin end_ fuzzy exact_ args = .error .systemExit := by
  unfold findSymbols
  match args with
  | [] => cases begin <;> cases end_ <;> cases fuzzy <;> cases exact_ <;> rfl
  | [a] => cases begin <;> cases end_ <;> cases fuzzy <;> cases exact_ <;> rfl
  | a :: b :: l =>
    rcases h with h | h
    · revert h
      cases begin <;> cases end_ <;> cases fuzzy <;> cases exact_ <;> simp
    · simp only [List.length_cons] at h; omega

/-- C93: `--exact` has no other effect. -/
theorem C93_exact_ignored (upper : Str → Str) (extract : Str → List Str → Nat → List Str)
    (fs : FileSystem) (fuel : Nat) (args : List Str) :
    findSymbols upper extract fs fuel false false false true args =
      findSymbols upper extract fs fuel false false false false args := rfl

/-- C93: without options find-symbols prints the definitions of the symbol, if there are any: each is
that of a line that no later line replaces. Otherwise it prints nothing. -/
theorem C93_definitions (upper : Str → Str) (extract : Str → List Str → Nat → List Str)
    (fs : FileSystem) (fuel : Nat) (exact_ : Bool) (symbol : Str) (files : List Str)
    (r : Option Found) (hp : PlainFiles files)
    (h : findSymbols upper extract fs fuel false false false exact_ (symbol :: files) = .ok r) :
    ∃ srcs, Read fs files srcs ∧
      ((r = none ∧ ¬ ∃ k i s tt seg sub kind, DefinedIn upper srcs k i s symbol tt seg sub kind) ∨
       ∃ d, r = some (.defs d) ∧
        (∃ k i s tt seg sub kind, FinalDef upper srcs k i s symbol tt seg sub kind) ∧
        (∀ seg sub kind e, Recorded [(symbol, d)] symbol seg sub kind e →
          ∃ k i s tt, FinalDef upper srcs k i s symbol tt seg sub kind ∧ Describes s tt e) ∧
        (∀ k i s tt seg sub kind, FinalDef upper srcs k i s symbol tt seg sub kind →
          ∃ e, Recorded [(symbol, d)] symbol seg sub kind e ∧ Describes s tt e)) := by
  unfold findSymbols at h
  match files with
  | [] => cases exact_ <;> cases h
  | f :: files =>
    simp only [Bool.false_and, Bool.or_self, Bool.false_eq_true, if_false] at h
    cases hb : buildAll upper fs fuel (f :: files) with
    | error e => rw [hb] at h; cases h
    | ok q =>
      obtain ⟨t, errs, tot⟩ := q
      rw [hb, py_bind_ok] at h
      simp only at h
      obtain ⟨srcs, hr, h1, -⟩ := buildAll_ok_from (plainFiles_iff.1 hp) plain4_nil hb
      simp only at h1
      have hrec := buildSrcs_recorded upper srcs [] (read_plain hr hp) plain4_nil
      rw [← h1] at hrec
      refine ⟨srcs, hr, ?_⟩
      rcases C75_exact extract t symbol none with ⟨d, hd, -, hf⟩ | ⟨hnone, hf⟩
      · rw [hf] at h
        right
        obtain ⟨seg, sub, kind, e, he⟩ := live_all hb symbol d hd
        have hne : d ≠ [] := by
          rintro rfl
          simp only [lookup4, dat, hd, Option.getD_some] at he
          cases he
        have hr' : r = some (.defs d) := by
          cases d with
          | nil => exact absurd rfl hne
          | cons p d => cases h; rfl
        have hconv : ∀ seg sub kind e, Recorded [(symbol, d)] symbol seg sub kind e ↔
            Recorded t symbol seg sub kind e := by
          intro seg sub kind e
          unfold Recorded
          simp [dget, hd]
        refine ⟨d, hr', ?_, ?_, ?_⟩
        · rcases (hrec symbol seg sub kind e).1 he with ⟨k, i, s, tt, hfin, -⟩ | ⟨he, -⟩
          · exact ⟨k, i, s, tt, seg, sub, kind, hfin⟩
          · cases he
        · intro seg sub kind e he
          rw [hconv, recorded_iff, hrec] at he
          rcases he with ⟨k, i, s, tt, hfin, rfl⟩ | ⟨he, -⟩
          · exact ⟨k, i, s, tt, hfin, entry_describes _ _⟩
          · cases he
        · intro k i s tt seg sub kind hfin
          refine ⟨entryOf (srcCard s) tt, ?_, entry_describes _ _⟩
          rw [hconv, recorded_iff, hrec]
          exact Or.inl ⟨k, i, s, tt, hfin, rfl⟩
      · rw [hf] at h
        left
        refine ⟨by cases h; rfl, ?_⟩
        rintro ⟨k, i, s, tt, seg, sub, kind, hdef⟩
        have := (buildSrcs_has upper srcs (read_plain hr hp) symbol kind).2
          ⟨k, i, s, tt, seg, sub, hdef⟩
        rw [← h1] at this
        obtain ⟨_, _, _, d1, _, _, hd1, _⟩ := this
        obtain ⟨k', hk', -⟩ := hnone d1 hd1
        cases hk'

/-- C93: with `--begin` or `--end` find-symbols prints the sorted list of the symbols that start or
end with the text, each once, if there are any. -/
theorem C93_affix (upper : Str → Str) (extract : Str → List Str → Nat → List Str)
    (fs : FileSystem) (fuel : Nat) (begin end_ : Bool) (text : Str) (files : List Str)
    (r : Option Found) (hp : PlainFiles files) (hone : begin = !end_)
    (h : findSymbols upper extract fs fuel begin end_ false false (text :: files) = .ok r) :
    ∃ srcs l, Read fs files srcs ∧ Increasing l ∧
      (r = if l = [] then none else some (.names l)) ∧
      ∀ n, n ∈ l ↔ (∃ k i s tt seg sub kind, DefinedIn upper srcs k i s n tt seg sub kind) ∧
        ((begin = true ∧ ∃ x, n = text ++ x) ∨ (end_ = true ∧ ∃ x, n = x ++ text)) := by
  have hc : ((begin && false) || (end_ && false) || (begin && end_) ||
      (false && (begin || end_ || false))) = false := by
    subst hone; cases end_ <;> rfl
  unfold findSymbols at h
  rw [if_neg (by rw [hc]; simp)] at h
  match files with
  | [] => cases h
  | f :: files =>
    simp only at h
    cases hb : buildAll upper fs fuel (f :: files) with
    | error e => rw [hb] at h; cases h
    | ok q =>
      obtain ⟨t, errs, tot⟩ := q
      rw [hb, py_bind_ok] at h
      simp only at h
      obtain ⟨srcs, hr, h1, -⟩ := buildAll_ok_from (plainFiles_iff.1 hp) plain4_nil hb
      simp only at h1
      obtain ⟨l, hl, hinc, hmem⟩ := C76_one_partial extract t text none begin end_ false
        (dicts_all hb).1 (by subst hone; cases end_ <;> simp)
      rw [hl] at h
      refine ⟨srcs, l, hr, hinc, ?_, fun n => ?_⟩
      · cases l with
        | nil => cases h; rfl
        | cons x l => cases h; rfl
      · rw [hmem]
        refine and_congr ⟨?_, ?_⟩ Iff.rfl
        · rintro ⟨d, hd⟩
          obtain ⟨seg, sub, kind, e, he⟩ := live_all hb n d hd
          have : HasKind t n kind := ⟨seg, sub, e, (recorded_iff _ _ _ _ _ _).2 he⟩
          rw [h1, buildSrcs_has upper srcs (read_plain hr hp)] at this
          obtain ⟨k, i, s, tt, seg, sub, hd⟩ := this
          exact ⟨k, i, s, tt, seg, sub, kind, hd⟩
        · rintro ⟨k, i, s, tt, seg, sub, kind, hd⟩
          have := (buildSrcs_has upper srcs (read_plain hr hp) n kind).2 ⟨k, i, s, tt, seg, sub, hd⟩
          rw [← h1] at this
          obtain ⟨_, _, _, d1, _, _, hd1, _⟩ := this
          exact ⟨d1, hd1⟩

example : findSymbols asciiUpper (fun _ _ _ => []) twoFs 10 true false false false
    [py "D", py "A.arg", py "B.arg"] = .ok (some (.names [py "D"])) := rfl

example : ∃ d, findSymbols asciiUpper (fun _ _ _ => []) twoFs 10 false false false true
    [py "C", py "A.arg", py "B.arg"] = .ok (some (.defs d)) ∧ d.map (·.1) = [py "A"] :=
  ⟨_, rfl, rfl⟩

end H800
