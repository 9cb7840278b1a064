import Verif.Lemmas.SymbolsFind

/-!
Properties C68-C77: building, checking and searching the symbol table.
-/

namespace H800

open Spec

/-! ### Examples used below -/

/-- `str.upper` on ASCII. -/
def asciiUpper (s : Str) : Str := s.map Char.toUpper

/-- A file with two definitions of A, a lower-case label, a subsegment and a mask tag. -/
def symFs : FileSystem := fun f =>
  if f = py "T.arg" then some (py
    "        A          TN\n        A          TX\n        b          TN\n        M,C        ASSIGN\n 0100              SETLOC,2\n        S,A        ASSIGN\n")
  else none

/-- The lines of the example. -/
def symOut : List Src :=
  [⟨py "T.arg", 1, py "        A          TN\n"⟩, ⟨py "T.arg", 2, py "        A          TX\n"⟩,
   ⟨py "T.arg", 3, py "        b          TN\n"⟩, ⟨py "T.arg", 4, py "        M,C        ASSIGN\n"⟩,
   ⟨py "T.arg", 5, py " 0100              SETLOC,2\n"⟩,
   ⟨py "T.arg", 6, py "        S,A        ASSIGN\n"⟩]

theorem symFs_expands : Expands symFs (py "T.arg") symOut := by
  refine ⟨_, rfl, ?_⟩
  have : ∀ {text : Str} (ls : List Str), readlines text = ls →
      Expand symFs (py "T.arg") 1 ls symOut →
      Expand symFs (py "T.arg") 1 (readlines text) symOut := fun ls h1 h2 => h1 ▸ h2
  refine this (symOut.map (·.text)) (by decide) ?_
  iterate 6 refine .plain (by decide) (by decide) ?_
  exact .nil _ _

theorem symFs_build : ∃ b, buildSymbolTable asciiUpper symFs 10 (py "T.arg") [] = .ok b ∧
    b.errcount = 2 ∧ b.symtab.map (·.1) = [py "A"] ∧
    b.diags.map (fun d => (d.err, d.label, d.file, d.line, d.tagtype)) =
      [(.case, py "b", some (py "T.arg"), 3, none),
       (.tagPrefix, py "M,C", some (py "T.arg"), 4, some (py " "))] ∧
    (lookup4 b.symtab (py "A") (py "T") (py "1") (py "simple")).map (·.line) = some 2 ∧
    (lookup4 b.symtab (py "A") (py "T") (py "2") (py "complex")).map
      (fun e => (e.line, e.tagtype)) = some (6, py "S") := by
  refine ⟨_, rfl, ?_⟩
  decide

/-! ### Building -/

/-- C68: the table is built for every file that can be read (within some recursion limit). -/
theorem C68_total (upper : Str → Str) (fs : FileSystem) (file : Str) (t : Symtab) (seg : Str)
    (hf : file ≠ []) (hseg : BeforeFirst '.' file seg) (hp : PlainSeg seg) (ht : PlainTable t)
    (out : List Src) (hout : Expands fs file out) :
    ∃ n b, PlainTable b.symtab ∧
      ∀ m, n ≤ m → buildSymbolTable upper fs m file t = .ok b := by
  rw [← beforeFirst_unique hseg] at hp
  obtain ⟨n, hn⟩ := build_complete (upper := upper) (t := t) hf hout
  obtain ⟨h1, h2⟩ := buildCards_plain (upper := upper) hp (st := ⟨t, py "1", 0, []⟩)
    ((plain_iff t).1 ht) (out.map srcCard)
  exact ⟨n, _, (plain_iff _).2 h2, fun m hm => (hn m hm).trans h1⟩

/-- C68: for every line that is not starred and has a well-formed label and an operation the table
has an entry under the tag, the segment, the subsegment in force and the kind; it is that of the
last such line. -/
theorem C68_complete (upper : Str → Str) (fs : FileSystem) (fuel : Nat) (file : Str) (t : Symtab)
    (seg : Str) (hseg : BeforeFirst '.' file seg) (hp : PlainSeg seg) (ht : PlainTable t)
    (b : BuildState) (hb : buildSymbolTable upper fs fuel file t = .ok b)
    (out : List Src) (hout : Expands fs file out) (i : Nat) (s : Src) (tag tagtype sub kind : Str)
    (hdef : DefinesAt upper out i s tag tagtype sub kind) :
    ∃ j s' tagtype' e, i ≤ j ∧ DefinesAt upper out j s' tag tagtype' sub kind ∧
      (∀ k s'' tt, j < k → ¬ DefinesAt upper out k s'' tag tt sub kind) ∧
      Recorded b.symtab tag seg sub kind e ∧ Describes s' tagtype' e := by
  obtain ⟨hf, out', ho', hbuild⟩ := build_ok hb
  obtain rfl : out = out' := by
    obtain ⟨x, hx, hx2⟩ := hout
    obtain ⟨y, hy, hy2⟩ := ho'
    rw [hx] at hy; cases hy
    exact expand_unique hx2 _ hy2
  obtain rfl := beforeFirst_unique hseg
  rw [(buildCards_plain hp ((plain_iff t).1 ht) _).1] at hbuild
  cases hbuild
  obtain ⟨j, ⟨hij, s', tt', hj⟩, hlast⟩ := last_index
    (P := fun j => i ≤ j ∧ ∃ s' tt', DefinesAt upper out j s' tag tt' sub kind) (n := out.length)
    ⟨le_refl i, s, tagtype, hdef⟩ (by
      rintro k ⟨-, s', tt', h, -⟩
      exact (List.getElem?_eq_some_iff.1 h).1)
  have hlast' : ∀ k s'' tt, j < k → ¬ DefinesAt upper out k s'' tag tt sub kind :=
    fun k s'' tt hk h => hlast k hk ⟨by omega, s'', tt, h⟩
  refine ⟨j, s', tt', entryOf (srcCard s') tt', hij, hj, hlast', ?_, entry_describes _ _⟩
  rw [recorded_iff]
  apply fold_last upper _ tag sub kind _ _ j
  · exact (defAt_iff _ _ _ _ _ _ _).2 ⟨s', tt', hj, rfl⟩
  · intro k e hk h
    obtain ⟨s'', tt, h, -⟩ := (defAt_iff _ _ _ _ _ _ _).1 h
    exact hlast' k s'' tt hk h

/-- C68, an example: line 6 is in subsegment 2 and defines A as a mask tag, complex. -/
theorem sym_defines6 : DefinesAt asciiUpper symOut 5
    ⟨py "T.arg", 6, py "        S,A        ASSIGN\n"⟩ (py "A") (py "S") (py "2") (py "complex") := by
  obtain ⟨s, tt, h, e⟩ := (defAt_iff asciiUpper symOut 5 (py "A") (py "2") (py "complex")
    (entryOf (srcCard ⟨py "T.arg", 6, py "        S,A        ASSIGN\n"⟩) (py "S"))).1 (by decide)
  have h0 := h.1
  have : symOut[5]? = some ⟨py "T.arg", 6, py "        S,A        ASSIGN\n"⟩ := rfl
  rw [this] at h0
  cases h0
  have : py "S" = tt := congrArg SymEntry.tagtype e
  rw [this]
  exact h

example : PlainSeg (py "T") ∧ BeforeFirst '.' (py "T.arg") (py "T") := by
  refine ⟨by unfold PlainSeg; decide, by decide, Or.inr ⟨py "arg", rfl⟩⟩

/-- C69: every entry of the table was there before, or comes from a line of the deck that is not
starred and has a well-formed label and an operation, with the segment of the file, the tag, tag
type, kind and subsegment of that line and its file, line number and log number. This holds for any
segment name. -/
theorem C69_sound (upper : Str → Str) (fs : FileSystem) (fuel : Nat) (file : Str) (t : Symtab)
    (b : BuildState) (hb : buildSymbolTable upper fs fuel file t = .ok b) :
    ∃ out, Expands fs file out ∧ ∀ tag seg sub kind e, Recorded b.symtab tag seg sub kind e →
      Recorded t tag seg sub kind e ∨
      (BeforeFirst '.' file seg ∧ ∃ i s tagtype,
        DefinesAt upper out i s tag tagtype sub kind ∧ Describes s tagtype e) := by
  obtain ⟨hf, out, ho, hbuild⟩ := build_ok hb
  refine ⟨out, ho, fun tag seg sub kind e he => ?_⟩
  rw [recorded_iff] at he ⊢
  rcases (buildCards_sound hbuild tag seg sub kind).2 e he with h | ⟨rfl, i, h⟩
  · exact Or.inl h
  · obtain ⟨s, tt, h1, rfl⟩ := (defAt_iff _ _ _ _ _ _ _).1 h
    exact Or.inr ⟨beforeFirst '.' file, i, s, tt, h1, entry_describes _ _⟩

open Classical in
/-- C70: the error count is the number of lines in error: not starred and labelled, the label lower
case, with too many commas, or with a bad or unsupported prefix, or without operation. As many
errors are printed. -/
theorem C70_errors (upper : Str → Str) (fs : FileSystem) (fuel : Nat) (file : Str) (t : Symtab)
    (seg : Str) (hseg : BeforeFirst '.' file seg) (hp : PlainSeg seg) (ht : PlainTable t)
    (b : BuildState) (hb : buildSymbolTable upper fs fuel file t = .ok b) :
    ∃ out, Expands fs file out ∧
      b.errcount = (out.filter fun s => decide (InError upper s)).length ∧
      b.diags.length = b.errcount := by
  obtain ⟨hf, out, ho, hbuild⟩ := build_ok hb
  obtain rfl := beforeFirst_unique hseg
  rw [(buildCards_plain hp ((plain_iff t).1 ht) _).1] at hbuild
  cases hbuild
  obtain ⟨h1, h2⟩ := fold_errs upper (splitFirst file '.') (out.map srcCard) ⟨t, py "1", 0, []⟩
  refine ⟨out, ho, ?_, ?_⟩
  · rw [h1]
    simp only [Nat.zero_add]
    unfold errsOf
    clear ho hb h1 h2
    induction out with
    | nil => rfl
    | cons s out ih =>
      rw [List.map_cons, List.filterMap_cons, List.filter_cons]
      have := action_err upper s
      cases ha : actionOf upper (srcCard s) with
      | skip =>
        have hn : ¬ InError upper s := fun h => by
          obtain ⟨e, l, tt, h⟩ := this.2 h; rw [ha] at h; cases h
        simpa [hn] using ih
      | def_ tag tt o =>
        have hn : ¬ InError upper s := fun h => by
          obtain ⟨e, l, tt, h⟩ := this.2 h; rw [ha] at h; cases h
        simpa [hn] using ih
      | err e l tt =>
        have hy : InError upper s := this.1 ⟨e, l, _, ha⟩
        simpa [hy] using ih
  · rw [h1, h2]; simp

/-- C71, in full: a second definition of a tag with the same kind in the same segment and
subsegment, unless both are EQUALS with the same addresses, is reported and counted, and the first
definition is kept. -/
def C71_statement : Prop :=
  ∀ (upper : Str → Str) (fs : FileSystem) (fuel : Nat) (file seg : Str) (b : BuildState)
    (out : List Src) (i j : Nat) (s s' : Src) (tag tt tt' sub kind : Str),
    BeforeFirst '.' file seg → buildSymbolTable upper fs fuel file [] = .ok b →
    Expands fs file out → DefinesAt upper out i s tag tt sub kind →
    (∀ k s'' tt'', k < i → ¬ DefinesAt upper out k s'' tag tt'' sub kind) →
    i < j → DefinesAt upper out j s' tag tt' sub kind → ¬ SameEquals s s' →
    (∃ d ∈ b.diags, d.err = .multiple ∧ d.label = tag) ∧ 0 < b.errcount ∧
      ∃ e, Recorded b.symtab tag seg sub kind e ∧ Describes s tt e

theorem sym_defines12 :
    DefinesAt asciiUpper symOut 0 ⟨py "T.arg", 1, py "        A          TN\n"⟩ (py "A") (py " ")
      (py "1") (py "simple") ∧
    DefinesAt asciiUpper symOut 1 ⟨py "T.arg", 2, py "        A          TX\n"⟩ (py "A") (py " ")
      (py "1") (py "simple") := by
  constructor
  · obtain ⟨s, tt, h, e⟩ := (defAt_iff asciiUpper symOut 0 (py "A") (py "1") (py "simple")
      (entryOf (srcCard ⟨py "T.arg", 1, py "        A          TN\n"⟩) (py " "))).1 (by decide)
    have h0 := h.1
    have : symOut[0]? = some ⟨py "T.arg", 1, py "        A          TN\n"⟩ := rfl
    rw [this] at h0
    cases h0
    have : py " " = tt := congrArg SymEntry.tagtype e
    rw [this]
    exact h
  · obtain ⟨s, tt, h, e⟩ := (defAt_iff asciiUpper symOut 1 (py "A") (py "1") (py "simple")
      (entryOf (srcCard ⟨py "T.arg", 2, py "        A          TX\n"⟩) (py " "))).1 (by decide)
    have h0 := h.1
    have : symOut[1]? = some ⟨py "T.arg", 2, py "        A          TX\n"⟩ := rfl
    rw [this] at h0
    cases h0
    have : py " " = tt := congrArg SymEntry.tagtype e
    rw [this]
    exact h

/-- C71 is false: two definitions of A in one subsegment are not reported. -/
theorem C71_refuted : ¬ C71_statement := by
  intro h
  obtain ⟨b, hb, -, -, hd, -⟩ := symFs_build
  obtain ⟨h1, -⟩ := h asciiUpper symFs 10 (py "T.arg") (py "T") b symOut 0 1 _ _ (py "A") _ _ _ _
    ⟨by decide, Or.inr ⟨py "arg", rfl⟩⟩ hb symFs_expands sym_defines12.1
    (fun k _ _ hk => absurd hk (by omega)) (by omega) sym_defines12.2 (by
      rintro ⟨ho, -⟩
      rw [← op_iff] at ho
      revert ho
      decide)
  obtain ⟨d, h1, h2, -⟩ := h1
  have h3 := List.mem_map_of_mem (f := fun d : Diag => (d.err, d.label, d.file, d.line, d.tagtype)) h1
  rw [hd, h2] at h3
  simp at h3

/-- C71, what holds instead for ordinary segment names: of several definitions with the same keys
the last one is kept, and only ill-formed lines are counted as errors. -/
theorem C71_last_wins_partial (upper : Str → Str) (fs : FileSystem) (fuel : Nat) (file : Str)
    (t : Symtab) (seg : Str) (hseg : BeforeFirst '.' file seg) (hp : PlainSeg seg)
    (ht : PlainTable t) (b : BuildState) (hb : buildSymbolTable upper fs fuel file t = .ok b)
    (out : List Src) (hout : Expands fs file out) (j : Nat) (s : Src) (tag tagtype sub kind : Str)
    (hdef : DefinesAt upper out j s tag tagtype sub kind)
    (hlast : ∀ k s' tt, j < k → ¬ DefinesAt upper out k s' tag tt sub kind) :
    (∃ e, Recorded b.symtab tag seg sub kind e ∧ Describes s tagtype e) ∧
    ∀ d ∈ b.diags, d.err ≠ .multiple := by
  constructor
  · obtain ⟨j', s', tt', e, hle, hd, hl, h1, h2⟩ :=
      C68_complete upper fs fuel file t seg hseg hp ht b hb out hout j s tag tagtype sub kind hdef
    have : j' = j := by
      rcases Nat.lt_or_ge j j' with h | h
      · exact absurd hd (hlast j' s' tt' h)
      · omega
    subst this
    have hs := hd.1
    rw [hdef.1] at hs
    cases hs
    have htt : tt' = tagtype := by
      obtain ⟨-, h8, ⟨l, hl1, hl2⟩, ⟨o, ho, hk⟩, -⟩ := hd
      obtain ⟨-, h8, ⟨l', hl1', hl2'⟩, ⟨o', ho', hk'⟩, -⟩ := hdef
      have a1 := (action_def upper s tag tt' o).2 ⟨h8, ⟨l, hl1, hl2⟩, ho⟩
      have a2 := (action_def upper s tag tagtype o').2 ⟨h8, ⟨l', hl1', hl2'⟩, ho'⟩
      rw [a1] at a2
      cases a2
      rfl
    subst htt
    exact ⟨e, h1, h2⟩
  · obtain ⟨hf, out', ho, hbuild⟩ := build_ok hb
    obtain rfl := beforeFirst_unique hseg
    rw [(buildCards_plain hp ((plain_iff t).1 ht) _).1] at hbuild
    cases hbuild
    rw [(fold_errs upper _ _ _).2]
    intro d hd
    rw [List.nil_append] at hd
    obtain ⟨c, -, hc⟩ := List.mem_filterMap.1 hd
    unfold actionOf at hc
    have hck : ∀ s e, checkLabel upper s = .error e → e ≠ .multiple := by
      intro s e he
      unfold checkLabel at he
      simp only at he
      split at he
      · cases he; decide
      · split at he
        · split at he
          · cases he; decide
          · split at he
            · cases he; decide
            · split at he
              · cases he; decide
              · cases he
        · cases he
    split at hc
    · rename_i e l heq
      cases hc
      split at heq
      · cases heq
      · split at heq
        · cases heq
        · cases heq
        · split at heq
          · rename_i e' he'
            cases heq
            exact hck _ _ he'
          · split at heq
            · cases heq; simp [reportOf]
            · cases heq
    · cases hc

/-- C71, where the check does work: if the tag is already defined in the segment and subsegment and
has a segment named like the kind, a further definition other than EQUALS is reported and counted,
and the table stays. -/
theorem C71_reported_partial (upper : Str → Str) (seg : Str) (st : BuildState) (s : Src)
    (tag tagtype o : Str) (h8 : ¬ Starred s) (hl : ∃ l, HasLabel s l ∧ GoodLabel upper l tag tagtype)
    (ho : HasOp s o) (hne : o ≠ py "EQUALS") (hnl : ∀ sub, ¬ Sets s sub)
    (segs : Dict Str (Dict Str (Dict Str SymEntry))) (subs : Dict Str (Dict Str SymEntry))
    (h1 : dget st.symtab tag = some segs) (h2 : dget segs seg = some subs)
    (kinds : Dict Str SymEntry) (h3 : dget subs st.subseg = some kinds)
    (h4 : (dget segs (kindOf o)).isSome = true) :
    ∃ d : Diag, d.err = .multiple ∧ d.label = tag ∧ d.file = some s.file ∧ d.line = s.num ∧
      d.tagtype = some tagtype ∧ d.prev = kinds ∧ d.command = some o ∧
      buildStep upper seg st (srcCard s) =
        .ok { st with errcount := st.errcount + 1, diags := st.diags ++ [d] } := by
  refine ⟨⟨.multiple, tag, some s.file, s.num, (srcCard s).lognum, some tagtype, srcCard s, kinds,
    some o⟩, rfl, rfl, rfl, rfl, rfl, rfl, rfl, ?_⟩
  rw [buildStep_eq, (action_def upper s tag tagtype o).2 ⟨h8, hl, ho⟩, step_keeps hnl]
  obtain ⟨w, h4⟩ := Option.isSome_iff_exists.1 h4
  rw [kindOf_eq] at h4
  simp only [define, h1, h2, h3, redefine, h4, if_neg hne]
  rfl

/-- C72: building from further files never removes a definition. -/
theorem C72_grows (upper : Str → Str) (fs : FileSystem) (fuel : Nat) (files : List Str)
    (t t' : Symtab)
    (h : files.foldlM (fun t f => do return (← buildSymbolTable upper fs fuel f t).symtab) t =
      .ok t') (tag seg sub kind : Str) (e : SymEntry) (he : Recorded t tag seg sub kind e) :
    ∃ e', Recorded t' tag seg sub kind e' := by
  simp only [recorded_iff] at *
  have key : (lookup4 t tag seg sub kind).isSome = true → (lookup4 t' tag seg sub kind).isSome = true := by
    clear he
    induction files generalizing t with
    | nil => cases h; exact id
    | cons f files ih =>
      rw [List.foldlM_cons] at h
      cases hb : buildSymbolTable upper fs fuel f t with
      | error e => rw [hb] at h; cases h
      | ok b =>
        rw [hb] at h
        obtain ⟨-, out, -, hbuild⟩ := build_ok hb
        intro hs
        exact ih _ h ((buildCards_sound hbuild tag seg sub kind).1 hs)
  exact Option.isSome_iff_exists.1 (key (by rw [he]; rfl))

/-- C72: a definition that is in a file's way is replaced only by that of a line of this file: an
entry under another segment stays exactly as it is. -/
theorem C72_other_segments (upper : Str → Str) (fs : FileSystem) (fuel : Nat) (file : Str)
    (t : Symtab) (b : BuildState) (hb : buildSymbolTable upper fs fuel file t = .ok b)
    (tag seg sub kind : Str) (e : SymEntry) (hseg : ¬ BeforeFirst '.' file seg) :
    Recorded b.symtab tag seg sub kind e ↔ Recorded t tag seg sub kind e := by
  obtain ⟨hf, out, ho, hbuild⟩ := build_ok hb
  have hne : seg ≠ splitFirst file '.' := by
    rintro rfl; exact hseg (beforeFirst '.' file)
  have hs : ∀ e', lookup4 b.symtab tag seg sub kind = some e' →
      lookup4 t tag seg sub kind = some e' := by
    intro e' he'
    rcases (buildCards_sound hbuild tag seg sub kind).2 e' he' with h | ⟨h, -⟩
    · exact h
    · exact absurd h hne
  rw [recorded_iff, recorded_iff]
  refine ⟨hs e, fun h => ?_⟩
  obtain ⟨e', he'⟩ := Option.isSome_iff_exists.1
    ((buildCards_sound hbuild tag seg sub kind).1 (by rw [h]; rfl))
  rw [he']
  have := hs e' he'
  rw [h] at this
  exact this.symm

/-! ### Checking -/

/-- A table with a complex-only symbol, and one whose simple definition is not in its first
segment. -/
def findTab : Symtab :=
  let e : SymEntry := ⟨none, 1, none, py " ",
    ⟨none, 1, none, none, none, none, none, none, none, none, none, []⟩⟩
  [(py "C", [(py "S", [(py "1", [(py "complex", e)])])]),
   (py "B", [(py "T", [(py "1", [(py "simple", e)])]), (py "S", [(py "1", [(py "complex", e)])])]),
   (py "AB", [(py "S", [(py "1", [(py "simple", e)]), (py "2", [(py "complex", e)])])])]

/-- C73: with `complexOnlyError`, `checkSymbolTable` returns the sorted list of the symbols that have
a complex definition somewhere and a simple one nowhere, each once; without, nothing. -/
theorem C73_check (t : Symtab) (ht : (t.map (·.1)).Nodup) :
    checkSymbolTable t false = [] ∧ Increasing (checkSymbolTable t true) ∧
    ∀ n, n ∈ checkSymbolTable t true ↔
      HasKind t n (py "complex") ∧ ¬ HasKind t n (py "simple") := by
  refine ⟨?_, increasing_sorted (filter_increasing (sortedKeys_increasing ht) _), fun n => ?_⟩
  · unfold checkSymbolTable
    simp only [Bool.false_and, Bool.and_false, List.filter_false]
    rfl
  · unfold checkSymbolTable
    rw [(pySortedStr_perm _).mem_iff, List.mem_filter, mem_sortedKeys]
    simp only [Bool.true_and, Bool.and_eq_true, Bool.not_eq_true', ← foundKind_iff,
      Bool.not_eq_true]
    constructor
    · rintro ⟨-, h1, h2⟩; exact ⟨h2, h1⟩
    · rintro ⟨h1, h2⟩
      refine ⟨?_, h2, h1⟩
      obtain ⟨seg, sub, e, d1, -, -, h, -⟩ := (foundKind_iff _ _ _).1 h1
      exact ⟨d1, h⟩

example : checkSymbolTable findTab true = [py "C"] ∧ (findTab.map (·.1)).Nodup := by decide

/-! ### Searching -/

/-- C74, in full: `getAbsoluteSymbols` returns the sorted list of the symbols that have a simple
definition, each once. -/
def C74_statement : Prop := ∀ t : Symtab, (t.map (·.1)).Nodup →
  Increasing (getAbsoluteSymbols t) ∧
  ∀ n, n ∈ getAbsoluteSymbols t ↔ HasKind t n (py "simple")

/-- C74 is false: B has a simple definition in its second segment only, and comes after AB. -/
theorem C74_refuted : ¬ C74_statement := by
  intro h
  have h1 := (h findTab (by decide)).2 (py "B")
  have h2 : HasKind findTab (py "B") (py "simple") := by
    rw [← foundKind_iff]; decide
  have h3 : py "B" ∈ getAbsoluteSymbols findTab := h1.2 h2
  revert h3
  decide

/-- C74, what holds: the result is sorted without duplicates, and consists of the symbols with a
simple definition in the least of their segments, and the least symbol with a simple definition at
all. -/
theorem C74_exact_partial (t : Symtab) (ht : (t.map (·.1)).Nodup) :
    Increasing (getAbsoluteSymbols t) ∧
    ∀ n, n ∈ getAbsoluteSymbols t ↔ HasKind t n (py "simple") ∧
      ((∃ seg sub e, LeastSeg t n seg ∧ Recorded t n seg sub (py "simple") e) ∨
        ∀ m, strLe m n = true → m ≠ n → ¬ HasKind t m (py "simple")) := by
  have hi := sortedKeys_increasing ht
  refine ⟨List.Pairwise.sublist (absoluteLoop_sublist t _) hi, fun n => ?_⟩
  unfold getAbsoluteSymbols
  rw [absoluteLoop_mem t hi, firstHas_iff, mem_sortedKeys]
  have hkey : ∀ m, HasKind t m (py "simple") → ∃ v, dget t m = some v := by
    rintro m ⟨seg, sub, e, d1, -, -, h, -⟩; exact ⟨d1, h⟩
  constructor
  · rintro ⟨-, h1, h2⟩
    refine ⟨h1, h2.imp id fun hall m hle hne hk => ?_⟩
    exact hall m (mem_sortedKeys.2 (hkey m hk)) hle hne hk
  · rintro ⟨h1, h2⟩
    exact ⟨hkey n h1, h1, h2.imp id fun hall m _ => hall m⟩

/-- C74 holds for tables built from one segment: when every symbol has all its definitions in one
segment. -/
theorem C74_one_segment_partial (t : Symtab) (ht : (t.map (·.1)).Nodup)
    (hone : ∀ n segs, dget t n = some segs → ∀ a b v w, dget segs a = some v →
      dget segs b = some w → a = b) :
    Increasing (getAbsoluteSymbols t) ∧
    ∀ n, n ∈ getAbsoluteSymbols t ↔ HasKind t n (py "simple") := by
  obtain ⟨h1, h2⟩ := C74_exact_partial t ht
  refine ⟨h1, fun n => ?_⟩
  rw [h2]
  constructor
  · exact fun h => h.1
  · intro hk
    refine ⟨hk, Or.inl ?_⟩
    obtain ⟨seg, sub, e, d1, d2, d3, e1, e2, e3, e4⟩ := hk
    refine ⟨seg, sub, e, ⟨d1, e1, ⟨d2, e2⟩, fun seg' v hv => ?_⟩, d1, d2, d3, e1, e2, e3, e4⟩
    rw [hone n d1 e1 seg seg' d2 v e2 hv]
    exact strLe_refl _

example : getAbsoluteSymbols findTab = [py "AB"] := by decide

/-- C75: an exact lookup returns the definitions of the symbol if it exists and, if a kind is given,
has a definition of that kind; otherwise it returns None and prints one error. -/
theorem C75_exact (extract : Str → List Str → Nat → List Str) (t : Symtab) (name : Str)
    (symtype : Option Str) :
    (∃ d, dget t name = some d ∧ (∀ k, symtype = some k → HasKind t name k) ∧
      findSymbolDef extract t name symtype false false false = (.defs d, 0)) ∨
    ((∀ d, dget t name = some d → ∃ k, symtype = some k ∧ ¬ HasKind t name k) ∧
      findSymbolDef extract t name symtype false false false = (.nothing, 1)) := by
  unfold findSymbolDef
  simp only [Bool.not_false, Bool.and_self, if_true]
  unfold findExact
  cases hd : dget t name with
  | none =>
    right
    refine ⟨(by intro d h; cases h), ?_⟩
    rw [if_neg]
    simp only [List.contains_iff_mem, mem_sortedKeys, hd]
    simp
  | some d =>
    have hm : (sortedKeys t).contains name = true := by
      simp only [List.contains_iff_mem, mem_sortedKeys]; exact ⟨d, hd⟩
    have hdat : dat t name = d := by simp [dat, hd]
    rw [if_pos hm]
    cases symtype with
    | none => left; exact ⟨d, rfl, by simp, by simp [hdat]⟩
    | some k =>
      simp only
      by_cases hk : foundKind t name k = true
      · left
        rw [if_pos hk]
        exact ⟨d, rfl, by rintro k' e; cases e; exact (foundKind_iff _ _ _).1 hk, by rw [hdat]⟩
      · right
        rw [if_neg hk]
        exact ⟨fun _ _ => ⟨k, rfl, fun h => hk ((foundKind_iff _ _ _).2 h)⟩, rfl⟩

example (extract : Str → List Str → Nat → List Str) :
    (findSymbolDef extract findTab (py "C") (some (py "simple")) false false false).2 = 1 ∧
    (findSymbolDef extract findTab (py "C") none false false false).2 = 0 :=
  ⟨rfl, rfl⟩

/-- C76, in full: with `begin` and/or `end` the result is the sorted list of the symbols starting
and/or ending with the text, each once. -/
def C76_statement : Prop := ∀ (extract : Str → List Str → Nat → List Str) (t : Symtab)
  (name : Str) (symtype : Option Str) (begin end_ fuzzy : Bool), (t.map (·.1)).Nodup →
  (begin = true ∨ end_ = true) →
  ∃ l, findSymbolDef extract t name symtype begin end_ fuzzy = (.names l, 0) ∧ Increasing l ∧
    ∀ n, n ∈ l ↔ (∃ d, dget t n = some d) ∧
      ((begin = true ∧ ∃ r, n = name ++ r) ∨ (end_ = true ∧ ∃ r, n = r ++ name))

/-- C76 is false: with both, a symbol that starts and ends with the text is listed twice. -/
theorem C76_refuted : ¬ C76_statement := by
  intro h
  obtain ⟨l, h1, h2, -⟩ := h (fun _ _ _ => []) findTab (py "C") none true true false (by decide)
    (Or.inl rfl)
  have : findSymbolDef (fun _ _ _ => []) findTab (py "C") none true true false =
    (.names [py "C", py "C"], 0) := rfl
  rw [this] at h1
  cases h1
  have := (List.pairwise_cons.1 h2).1 (py "C") (by simp)
  exact this.2 rfl

theorem findSymbolDef_affix (extract : Str → List Str → Nat → List Str) (t : Symtab) (name : Str)
    (symtype : Option Str) (begin end_ fuzzy : Bool) (h : begin = true ∨ end_ = true) :
    findSymbolDef extract t name symtype begin end_ fuzzy =
      (.names ((sortedKeys t).flatMap fun sym =>
        (if begin && hasPrefix name sym then [sym] else []) ++
          (if end_ && hasSuffix name sym then [sym] else [])), 0) := by
  unfold findSymbolDef
  cases begin <;> cases end_ <;> simp_all

/-- C76, what holds: with one of `begin` and `end` the whole claim. -/
theorem C76_one_partial (extract : Str → List Str → Nat → List Str) (t : Symtab)
    (name : Str) (symtype : Option Str) (begin end_ fuzzy : Bool) (ht : (t.map (·.1)).Nodup)
    (hone : (begin = true ∧ end_ = false) ∨ (begin = false ∧ end_ = true)) :
    ∃ l, findSymbolDef extract t name symtype begin end_ fuzzy = (.names l, 0) ∧ Increasing l ∧
      ∀ n, n ∈ l ↔ (∃ d, dget t n = some d) ∧
        ((begin = true ∧ ∃ r, n = name ++ r) ∨ (end_ = true ∧ ∃ r, n = r ++ name)) := by
  have key : ∀ p : Str → Bool, ((sortedKeys t).flatMap fun sym => if p sym then [sym] else []) =
      (sortedKeys t).filter p := by
    intro p
    induction sortedKeys t with
    | nil => rfl
    | cons x l ih => rw [List.flatMap_cons, ih, List.filter_cons]; split <;> rfl
  have hm : ∀ n, n ∈ sortedKeys t ↔ ∃ d, dget t n = some d := fun n => mem_sortedKeys
  rcases hone with ⟨rfl, rfl⟩ | ⟨rfl, rfl⟩
  · refine ⟨_, findSymbolDef_affix extract t name symtype true false fuzzy (Or.inl rfl), ?_⟩
    simp only [Bool.true_and, Bool.false_and, Bool.false_eq_true, if_false, List.append_nil, key]
    refine ⟨filter_increasing (sortedKeys_increasing ht) _, fun n => ?_⟩
    rw [List.mem_filter, hasPrefix_iff, hm]
    simp
  · refine ⟨_, findSymbolDef_affix extract t name symtype false true fuzzy (Or.inr rfl), ?_⟩
    simp only [Bool.true_and, Bool.false_and, Bool.false_eq_true, if_false, List.nil_append, key]
    refine ⟨filter_increasing (sortedKeys_increasing ht) _, fun n => ?_⟩
    rw [List.mem_filter, hasSuffix_iff, hm]
    simp

/-- C76, with both `begin` and `end`: the result is sorted, its members are right, and a symbol is
listed once for each of the two that it satisfies. -/
theorem C76_both_partial (extract : Str → List Str → Nat → List Str) (t : Symtab)
    (name : Str) (symtype : Option Str) (fuzzy : Bool) (ht : (t.map (·.1)).Nodup) :
    ∃ l, findSymbolDef extract t name symtype true true fuzzy = (.names l, 0) ∧
      l.Pairwise (fun a b => strLe a b = true) ∧
      (∀ n, (∀ d, dget t n ≠ some d) → n ∉ l) ∧
      ∀ n d, dget t n = some d → l.count n =
        (if name <+: n then 1 else 0) + (if name <:+ n then 1 else 0) := by
  have hp : ∀ n : Str, name <+: n ↔ hasPrefix name n = true := fun n => by simp [hasPrefix]
  have hs : ∀ n : Str, name <:+ n ↔ hasSuffix name n = true := fun n => by simp [hasSuffix]
  simp only [hp, hs]
  refine ⟨_, findSymbolDef_affix extract t name symtype true true fuzzy (Or.inl rfl), ?_⟩
  have hinc := sortedKeys_increasing ht
  have hm : ∀ n, n ∈ sortedKeys t ↔ ∃ d, dget t n = some d := fun n => mem_sortedKeys
  simp only [Bool.true_and]
  generalize sortedKeys t = ks at hinc hm
  have hmem : ∀ (ks : List Str) n, n ∈ (ks.flatMap fun sym =>
        (if hasPrefix name sym = true then [sym] else []) ++
          (if hasSuffix name sym = true then [sym] else [])) → n ∈ ks := by
    intro ks n hn
    obtain ⟨x, hx, h⟩ := List.mem_flatMap.1 hn
    rcases List.mem_append.1 h with h | h
    · split at h
      · simp at h; rw [h]; exact hx
      · cases h
    · split at h
      · simp at h; rw [h]; exact hx
      · cases h
  refine ⟨?_, fun n hn h => ?_, ?_⟩
  · clear hm
    induction ks with
    | nil => exact List.Pairwise.nil
    | cons x ks ih =>
      obtain ⟨h1, h2⟩ := List.pairwise_cons.1 hinc
      rw [List.flatMap_cons, List.pairwise_append]
      refine ⟨?_, ih h2, ?_⟩
      · split <;> split <;> simp [strLe_refl]
      · intro a ha b hb
        have hax : a = x := by
          rcases List.mem_append.1 ha with h | h <;> (split at h <;> simp at h; exact h)
        rw [hax]
        exact (h1 b (hmem ks b hb)).1
  · obtain ⟨d, hd⟩ := (hm n).1 (hmem ks n h)
    exact hn d hd
  · intro n d hd
    have hn : n ∈ ks := (hm n).2 ⟨d, hd⟩
    clear hm
    induction ks with
    | nil => cases hn
    | cons x ks ih =>
      obtain ⟨h1, h2⟩ := List.pairwise_cons.1 hinc
      rw [List.flatMap_cons, List.count_append]
      by_cases hx : n = x
      · subst hx
        have : (ks.flatMap fun sym =>
            (if hasPrefix name sym = true then [sym] else []) ++
              (if hasSuffix name sym = true then [sym] else [])).count n = 0 := by
          rw [List.count_eq_zero]
          intro h
          exact (h1 n (hmem ks n h)).2 rfl
        rw [this]
        split <;> split <;> simp
      · have hn' : n ∈ ks := by
          rcases List.mem_cons.1 hn with h | h
          · exact absurd h hx
          · exact h
        rw [ih h2 hn']
        have : ((if hasPrefix name x = true then [x] else []) ++
          (if hasSuffix name x = true then [x] else [])).count n = 0 := by
          have hx' : ¬ x = n := fun e => hx e.symm
          split <;> split <;> simp [hx']
        omega

/-- C77: with `fuzzy` alone, whatever matcher that returns at most `limit` of its choices: the result
is a list of at most ten symbols with a simple definition. -/
theorem C77_fuzzy (extract : Str → List Str → Nat → List Str)
    (hex : ∀ q cs n, (extract q cs n).length ≤ n ∧ ∀ x ∈ extract q cs n, x ∈ cs)
    (t : Symtab) (name : Str) (symtype : Option Str) :
    ∃ l, findSymbolDef extract t name symtype false false true = (.names l, 0) ∧ l.length ≤ 10 ∧
      ∀ x ∈ l, HasKind t x (py "simple") := by
  refine ⟨_, rfl, (hex _ _ _).1, fun x hx => ?_⟩
  exact absoluteLoop_kind t _ x ((hex _ _ _).2 x hx)

example : findSymbolDef (fun _ cs n => cs.take n) findTab (py "AC") none false false true =
    (.names [py "AB"], 0) := rfl

end H800
