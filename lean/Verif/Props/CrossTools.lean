import Verif.Props.Tools
import Verif.Props.SymTools

/-!
Properties C121-C123: the tools agree with each other. They are run on the same files, with
recursion limits and options of their own.
-/

namespace H800

open Spec

/-! ### Auxiliary facts -/

theorem beforeFirst_filter {o p : Str} (h : BeforeFirst ',' o p) :
    BeforeFirst ',' (o.filter (· ≠ ' ')) (p.filter (· ≠ ' ')) := by
  obtain ⟨h1, h2⟩ := h
  refine ⟨fun hc => h1 (List.mem_filter.1 hc).1, ?_⟩
  rcases h2 with rfl | ⟨r, rfl⟩
  · exact Or.inl rfl
  · refine Or.inr ⟨r.filter (· ≠ ' '), ?_⟩
    rw [List.filter_append, List.filter_cons_of_pos (by decide)]

theorem stripped_plain {p : Str} (h : ∀ c ∈ p, isSpace c = false) (m : Str) :
    Stripped p m ↔ p = m := by
  constructor
  · rintro ⟨-, a, b, ha, hb, rfl⟩
    have hnil : ∀ l : Str, Blank l → (∀ c ∈ l, isSpace c = false) → l = [] := by
      intro l h1 h2
      cases l with
      | nil => rfl
      | cons c l =>
        have h3 := h1 c List.mem_cons_self
        rw [h2 c List.mem_cons_self] at h3
        cases h3
    rw [hnil a ha fun c hc => h c (by simp [hc]), hnil b hb fun c hc => h c (by simp [hc])]
    simp
  · rintro rfl
    refine ⟨⟨fun c hc => h c ?_, fun c hc => h c ?_⟩, [], [], fun c hc => (by cases hc),
      fun c hc => (by cases hc), by simp⟩
    · exact List.mem_of_mem_head? hc
    · exact List.mem_of_mem_getLast? hc

theorem filter_plain {p : Str} (h : ∀ c ∈ p, isSpace c = false) : p.filter (· ≠ ' ') = p := by
  rw [List.filter_eq_self]
  intro c hc
  have := h c hc
  simp only [ne_eq, decide_not, Bool.not_eq_eq_eq_not, Bool.not_true, decide_eq_false_iff_not]
  rintro rfl
  exact absurd this (by decide)

theorem opcode_plain : ∀ m ∈ INSTRUCTIONS, ',' ∉ m ∧ ' ' ∉ m ∧ m ≠ [] := by decide +kernel

/-! ### list-instructions and check-instructions -/

/-- C121, in full: for each instruction, list-instructions lists as many lines as check-instructions
counts. -/
def C121_statement : Prop := ∀ (fs : FileSystem) (fuel fuel' : Nat) (opts : CheckOpts)
  (details : Bool) (files : List Str) (msgs : List CheckMsg) (lines : List Str) (m : Str)
  (n t : Nat), checkInstructions fs fuel opts files = .ok msgs →
  listInstructions fs fuel' details (m :: files) = .ok lines → (m, n, t) ∈ freqs msgs →
  lines.length = n

/-- A file with an operation that has a blank inside. -/
def blankFs : FileSystem := fun f =>
  if f = py "T.arg" then some (py "                   B A\n") else none

/-- A file with a tab before the comma. -/
def tabFs : FileSystem := fun f =>
  if f = py "T.arg" then some (py "                   BA\t,X\n") else none

/-- C121 is false: `B A` is listed for BA but not counted under BA, and BA with a tab before its comma
is counted but not listed. -/
theorem C121_refuted : ¬ C121_statement ∧
    (∃ msgs, checkInstructions blankFs 5 ⟨false, true, false, false, false, false⟩ [py "T.arg"] =
      .ok msgs ∧ (py "BA", 0, 1) ∈ freqs msgs) ∧
    listInstructions blankFs 5 false [py "BA", py "T.arg"] = .ok [py "                   B A"] ∧
    (∃ msgs, checkInstructions tabFs 5 ⟨false, true, false, false, false, false⟩ [py "T.arg"] =
      .ok msgs ∧ (py "BA", 1, 1) ∈ freqs msgs) ∧
    listInstructions tabFs 5 false [py "BA", py "T.arg"] = .ok [] := by
  have h1 : ∃ msgs, checkInstructions blankFs 5 ⟨false, true, false, false, false, false⟩
      [py "T.arg"] = .ok msgs ∧ (py "BA", 0, 1) ∈ freqs msgs := by
    have : (match checkInstructions blankFs 5 ⟨false, true, false, false, false, false⟩
        [py "T.arg"] with
        | .ok msgs => decide ((py "BA", 0, 1) ∈ freqs msgs)
        | .error _ => false) = true := by decide +kernel
    split at this
    · rename_i msgs h; exact ⟨msgs, h, of_decide_eq_true this⟩
    · cases this
  have h2 : listInstructions blankFs 5 false [py "BA", py "T.arg"] =
      .ok [py "                   B A"] := by
    have : (match listInstructions blankFs 5 false [py "BA", py "T.arg"] with
        | .ok l => decide (l = [py "                   B A"])
        | .error _ => false) = true := by decide +kernel
    split at this
    · rename_i l h; rw [h, of_decide_eq_true this]
    · cases this
  have h3 : ∃ msgs, checkInstructions tabFs 5 ⟨false, true, false, false, false, false⟩
      [py "T.arg"] = .ok msgs ∧ (py "BA", 1, 1) ∈ freqs msgs := by
    have : (match checkInstructions tabFs 5 ⟨false, true, false, false, false, false⟩
        [py "T.arg"] with
        | .ok msgs => decide ((py "BA", 1, 1) ∈ freqs msgs)
        | .error _ => false) = true := by decide +kernel
    split at this
    · rename_i msgs h; exact ⟨msgs, h, of_decide_eq_true this⟩
    · cases this
  have h4 : listInstructions tabFs 5 false [py "BA", py "T.arg"] = .ok [] := by
    have : (match listInstructions tabFs 5 false [py "BA", py "T.arg"] with
        | .ok l => decide (l = [])
        | .error _ => false) = true := by decide +kernel
    split at this
    · rename_i l h; rw [h, of_decide_eq_true this]
    · cases this
  refine ⟨fun h => ?_, h1, h2, h3, h4⟩
  obtain ⟨msgs, h1, h1'⟩ := h1
  have := h _ _ _ _ _ _ _ _ _ _ _ h1 h2 h1'
  cases this

open Classical in
/-- C121, what holds: the claim is true of files in which the operations have no white space inside
or next to their first comma. -/
theorem C121_plain_partial (fs : FileSystem) (fuel fuel' : Nat) (opts : CheckOpts) (details : Bool)
    (files : List Str) (msgs : List CheckMsg) (lines : List Str) (m : Str) (n t : Nat)
    (h : checkInstructions fs fuel opts files = .ok msgs)
    (h' : listInstructions fs fuel' details (m :: files) = .ok lines)
    (hm : (m, n, t) ∈ freqs msgs)
    (hplain : ∀ out, Sources fs files out → ∀ s ∈ out, ∀ o p, HasOp s o → BeforeFirst ',' o p →
      ∀ c ∈ p, isSpace c = false) :
    lines.length = n := by
  obtain ⟨out, ho, h0, h1⟩ := C90_frequencies fs fuel opts files msgs h
  obtain ⟨out', ho', hl⟩ := C82_lists fs fuel' details m files lines h'
  obtain rfl := sources_unique ho ho'
  have hc : opts.count = true := by
    cases hc : opts.count with
    | true => rfl
    | false => rw [h0 hc] at hm; cases hm
  obtain ⟨-, h2, -, -⟩ := h1 hc
  obtain ⟨hi, hn, -, -⟩ := (h2 m n t).1 hm
  obtain ⟨hcomma, hblank, hne⟩ := opcode_plain m hi
  rw [← hl.length_eq, hn]
  congr 1
  apply List.filter_congr
  intro s hs
  apply decide_eq_decide.2
  constructor
  · rintro ⟨h3, o, u, h4, rfl, ⟨-, h5⟩ | ⟨h5, -⟩ | ⟨p, r, h5, -⟩⟩
    · have hb := beforeFirst ',' o
      have hp := hplain out ho s hs o _ h4 hb
      have hu : (splitFirst o ',').filter (· ≠ ' ') = m :=
        (beforeFirst_unique (beforeFirst_filter hb)).symm.trans (beforeFirst_unique h5)
      rw [filter_plain hp] at hu
      exact ⟨h3, hne, o, _, h4, hb, (stripped_plain hp m).2 hu⟩
    · exact absurd h5 hcomma
    · exact absurd (h5 ▸ by simp) hcomma
  · rintro ⟨h3, -, o, p, h4, h5, h6⟩
    have hp := hplain out ho s hs o p h4 h5
    have hf := beforeFirst_filter h5
    rw [filter_plain hp, (stripped_plain hp m).1 h6] at hf
    exact ⟨h3, o, _, h4, rfl, Or.inl ⟨hcomma, hf⟩⟩

/-- Counting two properties of the elements of a list: the counts differ by those elements that have
only one of them. -/
theorem filter_balance {α : Type} (l : List α) (a b : α → Bool) :
    (l.filter a).length + (l.filter fun x => b x && !a x).length =
      (l.filter b).length + (l.filter fun x => a x && !b x).length := by
  induction l with
  | nil => rfl
  | cons x l ih =>
    simp only [List.filter_cons]
    cases a x <;> cases b x <;> simp <;> omega

open Classical in
/-- C121, exactly: let p be the text of an operation before its first comma. The lines whose p gives
the instruction both when its spaces are removed and when it is stripped are listed and counted; the
two numbers differ by the lines for which only one of the two gives the instruction. In particular
the numbers are the same if and only if there are as many of the one kind as of the other. -/
theorem C121_exact_partial (fs : FileSystem) (fuel fuel' : Nat) (opts : CheckOpts) (details : Bool)
    (files : List Str) (msgs : List CheckMsg) (lines : List Str) (m : Str) (n t : Nat)
    (h : checkInstructions fs fuel opts files = .ok msgs)
    (h' : listInstructions fs fuel' details (m :: files) = .ok lines)
    (hm : (m, n, t) ∈ freqs msgs) :
    ∃ out, Sources fs files out ∧
      lines.length + (out.filter fun s => decide (¬ Starred s ∧ ∃ o p, HasOp s o ∧
          BeforeFirst ',' o p ∧ Stripped p m ∧ p.filter (· ≠ ' ') ≠ m)).length =
        n + (out.filter fun s => decide (¬ Starred s ∧ ∃ o p, HasOp s o ∧
          BeforeFirst ',' o p ∧ p.filter (· ≠ ' ') = m ∧ ¬ Stripped p m)).length := by
  obtain ⟨out, ho, h0, h1⟩ := C90_frequencies fs fuel opts files msgs h
  obtain ⟨out', ho', hl⟩ := C82_lists fs fuel' details m files lines h'
  obtain rfl := sources_unique ho ho'
  have hc : opts.count = true := by
    cases hc : opts.count with
    | true => rfl
    | false => rw [h0 hc] at hm; cases hm
  obtain ⟨-, h2, -, -⟩ := h1 hc
  obtain ⟨hi, hn, -, -⟩ := (h2 m n t).1 hm
  obtain ⟨hcomma, hblank, hne⟩ := opcode_plain m hi
  have hA : ∀ s, Matches m s ↔ ¬ Starred s ∧ ∃ o p, HasOp s o ∧ BeforeFirst ',' o p ∧
      p.filter (· ≠ ' ') = m := by
    intro s
    constructor
    · rintro ⟨h3, o, u, h4, rfl, ⟨-, h5⟩ | ⟨h5, -⟩ | ⟨p, r, h5, -⟩⟩
      · have hb := beforeFirst ',' o
        exact ⟨h3, o, _, h4, hb,
          (beforeFirst_unique (beforeFirst_filter hb)).symm.trans (beforeFirst_unique h5)⟩
      · exact absurd h5 hcomma
      · exact absurd (h5 ▸ by simp) hcomma
    · rintro ⟨h3, o, p, h4, h5, h6⟩
      have hf := beforeFirst_filter h5
      rw [h6] at hf
      exact ⟨h3, o, _, h4, rfl, Or.inl ⟨hcomma, hf⟩⟩
  have hop : ∀ {s o p o' p'}, HasOp s o → BeforeFirst ',' o p → HasOp s o' →
      BeforeFirst ',' o' p' → p = p' := by
    intro s o p o' p' a1 a2 a3 a4
    obtain rfl : o = o' := Option.some.inj (((op_iff s o).2 a1).symm.trans ((op_iff s o').2 a3))
    exact (beforeFirst_unique a2).symm.trans (beforeFirst_unique a4)
  refine ⟨out, ho, ?_⟩
  rw [← hl.length_eq, hn]
  have hb := filter_balance out (fun s => decide (Matches m s))
    (fun s => decide (¬ Starred s ∧ HasInstr s m))
  rw [show (fun s => decide (¬ Starred s ∧ HasInstr s m) && !decide (Matches m s)) =
      fun s => decide (¬ Starred s ∧ ∃ o p, HasOp s o ∧
          BeforeFirst ',' o p ∧ Stripped p m ∧ p.filter (· ≠ ' ') ≠ m) from ?_,
    show (fun s => decide (Matches m s) && !decide (¬ Starred s ∧ HasInstr s m)) =
      fun s => decide (¬ Starred s ∧ ∃ o p, HasOp s o ∧
          BeforeFirst ',' o p ∧ p.filter (· ≠ ' ') = m ∧ ¬ Stripped p m) from ?_] at hb
  · exact hb
  · funext s
    rw [← decide_not, ← Bool.decide_and]
    apply decide_eq_decide.2
    rw [hA]
    constructor
    · rintro ⟨⟨h3, o, p, h4, h5, h6⟩, h7⟩
      exact ⟨h3, o, p, h4, h5, h6, fun h8 => h7 ⟨h3, hne, o, p, h4, h5, h8⟩⟩
    · rintro ⟨h3, o, p, h4, h5, h6, h7⟩
      refine ⟨⟨h3, o, p, h4, h5, h6⟩, ?_⟩
      rintro ⟨-, -, o', p', h8, h9, h10⟩
      rw [← hop h4 h5 h8 h9] at h10
      exact h7 h10
  · funext s
    rw [← decide_not, ← Bool.decide_and]
    apply decide_eq_decide.2
    rw [hA]
    constructor
    · rintro ⟨⟨h3, -, o, p, h4, h5, h6⟩, h7⟩
      exact ⟨h3, o, p, h4, h5, h6, fun h8 => h7 ⟨h3, o, p, h4, h5, h8⟩⟩
    · rintro ⟨h3, o, p, h4, h5, h6, h7⟩
      refine ⟨⟨h3, hne, o, p, h4, h5, h6⟩, ?_⟩
      rintro ⟨-, o', p', h8, h9, h10⟩
      rw [← hop h4 h5 h8 h9] at h10
      exact h7 h10

/-- The hypotheses of C121 are met by the file of the other examples: TN is listed and counted
twice. -/
example : (match checkInstructions toolFs 10 ⟨false, true, false, false, false, false⟩ [py "T.arg"],
      listInstructions toolFs 9 false [py "TN", py "T.arg"] with
    | .ok msgs, .ok lines => decide ((py "TN", 2, 4) ∈ freqs msgs ∧ lines.length = 2)
    | _, _ => false) = true := by decide +kernel

/-! ### The tables behind the symbol tools -/

/-- What is recorded is recorded with a kind and the file of its line. -/
def KindsKnown (t : Symtab) : Prop :=
  ∀ n seg sub kind e, lookup4 t n seg sub kind = some e →
    (kind = py "simple" ∨ kind = py "complex") ∧ ∃ f, e.file = some f

theorem kindsKnown_cards {upper : Str → Str} {seg : Str} {out : List Src} {st st' : BuildState}
    (h : KindsKnown st.symtab) (hs : buildCards upper seg st (out.map srcCard) = .ok st') :
    KindsKnown st'.symtab := by
  unfold buildCards at hs
  induction out generalizing st with
  | nil => cases hs; exact h
  | cons s out ih =>
    rw [List.map_cons, List.foldlM_cons] at hs
    cases h1 : buildStep upper seg st (srcCard s) with
    | error e => rw [h1] at hs; cases hs
    | ok st1 =>
      rw [h1] at hs
      refine ih ?_ hs
      rw [buildStep_eq] at h1
      cases ha : actionOf upper (srcCard s) with
      | skip => rw [ha] at h1; cases h1; exact h
      | err e l tt => rw [ha] at h1; cases h1; exact h
      | def_ tag tt o =>
        rw [ha] at h1
        simp only at h1
        rcases define_cases { st with subseg := stepSub st.subseg (srcCard s) } seg tag (symtypeOf o)
          o (entryOf (srcCard s) tt) with e | ⟨w, k, -, -, e⟩
        · rw [e] at h1
          cases h1
          intro n g u k e he
          simp only at he
          rw [lookup4_put4] at he
          split at he
          · rename_i hk
            cases he
            rw [hk.2.2.2]
            exact ⟨symtypeOf_cases o, s.file, rfl⟩
          · exact h n g u k e he
        · rw [e] at h1
          split at h1
          · split at h1 <;> cases h1
          · cases h1; exact h

/-- The table of several files: the same for all recursion limits that suffice. -/
theorem table_of {upper : Str → Str} {fs : FileSystem} {fuel fuel' : Nat} {files : List Str}
    {r r' : Symtab × List Nat × Nat} (h : buildAll upper fs fuel files = .ok r)
    (h' : buildAll upper fs fuel' files = .ok r') :
    r = r' ∧ KindsKnown r.1 ∧ r.2.2 = r.2.1.sum := by
  unfold buildAll at h h'
  have gen : ∀ (files : List Str) (q r r' : Symtab × List Nat × Nat), KindsKnown q.1 →
      q.2.2 = q.2.1.sum →
      files.foldlM (fun r f => do
        let b ← buildSymbolTable upper fs fuel f r.1
        return (b.symtab, r.2.1 ++ [b.errcount], r.2.2 + b.errcount)) q =
          Except.ok (ε := PyErr) r →
      files.foldlM (fun r f => do
        let b ← buildSymbolTable upper fs fuel' f r.1
        return (b.symtab, r.2.1 ++ [b.errcount], r.2.2 + b.errcount)) q =
          Except.ok (ε := PyErr) r' → r = r' ∧ KindsKnown r.1 ∧ r.2.2 = r.2.1.sum := by
    intro files
    induction files with
    | nil => intro q r r' hk hq h h'; cases h; cases h'; exact ⟨rfl, hk, hq⟩
    | cons f files ih =>
      intro q r r' hk hq h h'
      rw [List.foldlM_cons] at h h'
      cases hb : buildSymbolTable upper fs fuel f q.1 with
      | error e => rw [hb] at h; cases h
      | ok b =>
        cases hb' : buildSymbolTable upper fs fuel' f q.1 with
        | error e => rw [hb'] at h'; cases h'
        | ok b' =>
          rw [hb] at h
          rw [hb'] at h'
          obtain ⟨-, out, ho, hc⟩ := build_ok hb
          obtain ⟨-, out', ho', hc'⟩ := build_ok hb'
          obtain rfl := expands_unique ho ho'
          obtain rfl : b = b' := by
            have := hc.symm.trans hc'
            cases this
            rfl
          exact ih (b.symtab, q.2.1 ++ [b.errcount], q.2.2 + b.errcount) r r'
            (kindsKnown_cards (st := ⟨q.1, py "1", 0, []⟩) hk hc) (by simp [hq]) h h'
  exact gen files ([], [], 0) r r' (fun n g u k e he => by cases he) rfl h h'

/-- What list-symbols prints shows its table. -/
theorem list_table {upper : Str → Str} {fs : FileSystem} {fuel : Nat} {files : List Str}
    {l : List ListLine} (h : listSymbols upper fs fuel files = .ok l) :
    ∃ q, buildAll upper fs fuel files = .ok q ∧ rows [] [] [] l = tableRows q.1 ∧
      ∀ n, .errors n ∈ l ↔ 0 < n ∧ n = q.2.2 := by
  unfold listSymbols at h
  split at h
  · cases h
  · cases hb : buildAll upper fs fuel files with
    | error e => rw [hb] at h; cases h
    | ok q =>
      obtain ⟨t, errs, tot⟩ := q
      rw [hb, py_bind_ok] at h
      simp only at h
      cases ht : tableLines t with
      | error e => rw [ht] at h; cases h
      | ok tl =>
        rw [ht, py_bind_ok] at h
        cases h
        refine ⟨_, rfl, ?_, fun n => ?_⟩
        · obtain ⟨a, b, c, e⟩ := tableLines_rows ht [] [] []
            (if tot > 0 then [ListLine.errors tot] else [])
          rw [e]
          have e0 : rows a b c (if tot > 0 then [ListLine.errors tot] else []) = [] := by
            split <;> rfl
          rw [e0, List.append_nil]
        · rw [List.mem_append]
          have hno := tableLines_noerr ht n
          split
          · rename_i hpos
            simp only [List.mem_singleton, ListLine.errors.injEq, hno, false_or]
            exact ⟨fun e => ⟨e ▸ hpos, e⟩, fun e => e.2⟩
          · rename_i hpos
            simp only [List.not_mem_nil, hno, or_self, false_iff]
            rintro ⟨h1, h2⟩
            exact hpos (h2 ▸ h1)

/-- The rows of a symbol are there iff it is in the table. -/
theorem tagged_rows {upper : Str → Str} {fs : FileSystem} {fuel : Nat} {files : List Str}
    {q : Symtab × List Nat × Nat} (hb : buildAll upper fs fuel files = .ok q) (n : Str) :
    (∃ row ∈ tableRows q.1, row.tag = n) ↔ ∃ d, dget q.1 n = some d := by
  constructor
  · rintro ⟨row, hm, rfl⟩
    obtain ⟨e, ⟨d, _, _, hd, _⟩, -⟩ := (mem_tableRows _ _).1 hm
    exact ⟨d, hd⟩
  · rintro ⟨d, hd⟩
    obtain ⟨seg, sub, kind, e, he⟩ := live_all hb n d hd
    exact ⟨rowOf n seg sub kind e, (mem_tableRows _ _).2 ⟨e, (recorded_iff _ _ _ _ _ _).2 he, rfl⟩, rfl⟩

/-! ### find-symbols and list-symbols -/

/-- C122: find-symbols (without options) finds a symbol exactly when list-symbols lists it, and the
definitions it prints are those listed, with the same tag type, line, text and file. -/
theorem C122_definitions (upper : Str → Str) (extract : Str → List Str → Nat → List Str)
    (fs : FileSystem) (fuel fuel' : Nat) (exact_ : Bool) (symbol : Str) (files : List Str)
    (r : Option Found) (l : List ListLine)
    (h : findSymbols upper extract fs fuel false false false exact_ (symbol :: files) = .ok r)
    (h' : listSymbols upper fs fuel' files = .ok l) :
    (r = none ↔ ∀ row ∈ rows [] [] [] l, row.tag ≠ symbol) ∧
    (∀ x, r = some x → ∃ d, x = .defs d ∧
      (∀ seg sub kind e, Recorded [(symbol, d)] symbol seg sub kind e →
        ∃ row ∈ rows [] [] [] l, row.tag = symbol ∧ row.seg = seg ∧ row.sub = sub ∧
          row.kind = kind ∧ row.tagtype = e.tagtype ∧ row.line = e.line ∧ row.card = e.card.text ∧
          ∃ f, e.file = some f ∧ BeforeFirst '.' f row.file) ∧
      ∀ row ∈ rows [] [] [] l, row.tag = symbol →
        ∃ e, Recorded [(symbol, d)] symbol row.seg row.sub row.kind e) := by
  obtain ⟨q', hb', hrows, -⟩ := list_table h'
  unfold findSymbols at h
  match files with
  | [] => cases exact_ <;> cases h
  | f :: files =>
    simp only [Bool.false_and, Bool.or_self, Bool.false_eq_true, if_false] at h
    cases hb : buildAll upper fs fuel (f :: files) with
    | error e => rw [hb] at h; cases h
    | ok q =>
      obtain ⟨rfl, hkind, -⟩ := table_of hb hb'
      have htag := tagged_rows hb symbol
      obtain ⟨t, errs, tot⟩ := q
      rw [hb, py_bind_ok] at h
      simp only at h hkind htag hrows
      rw [hrows]
      rcases C75_exact extract t symbol none with ⟨d, hd, -, hf⟩ | ⟨hnone, hf⟩
      · rw [hf] at h
        obtain ⟨seg, sub, kind, e, he⟩ := live_all hb symbol d hd
        have hne : d ≠ [] := by
          rintro rfl
          simp only [lookup4, dat, hd, Option.getD_some] at he
          cases he
        obtain rfl : r = some (.defs d) := by
          cases d with
          | nil => exact absurd rfl hne
          | cons p d => cases h; rfl
        have hconv : ∀ seg sub kind e, Recorded [(symbol, d)] symbol seg sub kind e ↔
            Recorded t symbol seg sub kind e := by
          intro seg sub kind e
          unfold Recorded
          simp [dget, hd]
        refine ⟨⟨fun h => (by cases h), fun h => ?_⟩, ?_⟩
        · obtain ⟨row, hm, ht⟩ := htag.2 ⟨d, hd⟩
          exact absurd ht (h row hm)
        · rintro x hx
          cases hx
          refine ⟨d, rfl, ?_, ?_⟩
          · intro seg sub kind e he
            rw [hconv] at he
            obtain ⟨f, hfile⟩ := (hkind symbol seg sub kind e ((recorded_iff _ _ _ _ _ _).1 he)).2
            refine ⟨rowOf symbol seg sub kind e, (mem_tableRows _ _).2 ⟨e, he, rfl⟩, rfl, rfl, rfl, rfl,
              rfl, rfl, rfl, f, hfile, ?_⟩
            simp only [rowOf, hfile, Option.getD_some]
            exact beforeFirst '.' f
          · rintro row hm rfl
            obtain ⟨e, he, -⟩ := (mem_tableRows _ _).1 hm
            exact ⟨e, (hconv _ _ _ _).2 he⟩
      · rw [hf] at h
        obtain rfl : r = none := by cases h; rfl
        refine ⟨⟨fun _ row hm ht => ?_, fun _ => rfl⟩, fun x hx => by cases hx⟩
        obtain ⟨d, hd⟩ := htag.1 ⟨row, hm, ht⟩
        obtain ⟨k, hk, -⟩ := hnone d hd
        cases hk

/-- The symbols found with `--begin` or `--end` are those list-symbols lists that start or end with
the text. -/
theorem C122_affix (upper : Str → Str) (extract : Str → List Str → Nat → List Str)
    (fs : FileSystem) (fuel fuel' : Nat) (begin end_ : Bool) (text : Str) (files : List Str)
    (r : Option Found) (l : List ListLine) (hone : begin = !end_)
    (h : findSymbols upper extract fs fuel begin end_ false false (text :: files) = .ok r)
    (h' : listSymbols upper fs fuel' files = .ok l) :
    ∃ ns, Increasing ns ∧ (r = if ns = [] then none else some (.names ns)) ∧
      ∀ n, n ∈ ns ↔ (∃ row ∈ rows [] [] [] l, row.tag = n) ∧
        ((begin = true ∧ ∃ x, n = text ++ x) ∨ (end_ = true ∧ ∃ x, n = x ++ text)) := by
  obtain ⟨q', hb', hrows, -⟩ := list_table h'
  have hc : ((begin && false) || (end_ && false) || (begin && end_) ||
      (false && (begin || end_ || false))) = false := by
    subst hone; cases end_ <;> rfl
  unfold findSymbols at h
  rw [if_neg (by rw [hc]; simp)] at h
  match files with
  | [] => cases h
  | f :: files =>
    simp only at h
    cases hb : buildAll upper fs fuel (f :: files) with
    | error e => rw [hb] at h; cases h
    | ok q =>
      obtain ⟨rfl, -, -⟩ := table_of hb hb'
      have htag := tagged_rows hb
      obtain ⟨ns, hl, hinc, hmem⟩ := C76_one_partial extract q.1 text none begin end_ false
        (dicts_all hb).1 (by subst hone; cases end_ <;> simp)
      obtain ⟨t, errs, tot⟩ := q
      rw [hb, py_bind_ok] at h
      simp only at h hl hmem htag hrows
      rw [hl] at h
      refine ⟨ns, hinc, ?_, fun n => ?_⟩
      · cases ns with
        | nil => cases h; rfl
        | cons x ns => cases h; rfl
      · rw [hmem, hrows, htag]

/-- C122, an example: D is defined once, found and listed; X is neither. -/
example : (match findSymbols id (fun _ _ _ => []) twoFs 5 false false false false
        [py "D", py "A.arg", py "B.arg"],
      findSymbols id (fun _ _ _ => []) twoFs 5 false false false false
        [py "X", py "A.arg", py "B.arg"],
      listSymbols id twoFs 5 [py "A.arg", py "B.arg"] with
    | .ok (some (.defs d)), .ok none, .ok l =>
      decide (d.map (·.1) = [py "B"] ∧ (rows [] [] [] l).map (·.tag) = [py "C", py "D", py "b"] )
    | _, _, _ => false) = true := by decide +kernel

/-! ### check-symbols and list-symbols -/

/-- C123: check-symbols with `--complex` reports exactly the symbols of which list-symbols lists
complex definitions only, and the errors it counts, file by file, add up to the number list-symbols
prints. -/
theorem C123_complex (upper : Str → Str) (extract : Str → List Str → Nat → List Str)
    (fs : FileSystem) (fuel fuel' : Nat) (files : List Str) (rep : SymReport) (l : List ListLine)
    (h : checkSymbols upper extract fs fuel true files = .ok rep)
    (h' : listSymbols upper fs fuel' files = .ok l) :
    (∀ n, n ∈ rep.undefined.map (·.1) ↔ (∃ row ∈ rows [] [] [] l, row.tag = n) ∧
      ∀ row ∈ rows [] [] [] l, row.tag = n → row.kind = py "complex") ∧
    (∀ n, .errors n ∈ l ↔ 0 < n ∧ n = rep.fileErrs.sum) := by
  obtain ⟨q', hb', hrows, herr⟩ := list_table h'
  unfold checkSymbols at h
  split at h
  · cases h
  · cases hb : buildAll upper fs fuel files with
    | error e => rw [hb] at h; cases h
    | ok q =>
      obtain ⟨rfl, hkind, hsum⟩ := table_of hb hb'
      obtain ⟨-, -, c3⟩ := C73_check q.1 (dicts_all hb).1
      obtain ⟨t, errs, tot⟩ := q
      rw [hb, py_bind_ok] at h
      simp only at h hkind hsum hrows herr c3
      cases h
      rw [hrows]
      have hk : ∀ n kind, HasKind t n kind ↔ ∃ row ∈ tableRows t, row.tag = n ∧ row.kind = kind := by
        intro n kind
        constructor
        · rintro ⟨seg, sub, e, he⟩
          exact ⟨rowOf n seg sub kind e, (mem_tableRows _ _).2 ⟨e, he, rfl⟩, rfl, rfl⟩
        · rintro ⟨row, hm, rfl, rfl⟩
          obtain ⟨e, he, -⟩ := (mem_tableRows _ _).1 hm
          exact ⟨row.seg, row.sub, e, he⟩
      have hkinds : ∀ row ∈ tableRows t, row.kind = py "simple" ∨ row.kind = py "complex" := by
        intro row hm
        obtain ⟨e, he, -⟩ := (mem_tableRows _ _).1 hm
        exact (hkind _ _ _ _ _ ((recorded_iff _ _ _ _ _ _).1 he)).1
      refine ⟨fun n => ?_, fun n => by rw [herr, hsum]⟩
      have hu : ((checkSymbolTable t true).map fun s =>
          (s, matchesOf (findSymbolDef extract t s none false false true))).map (·.1) =
          checkSymbolTable t true := by
        rw [List.map_map]; simp [Function.comp_def]
      simp only [hu]
      rw [c3, hk, hk]
      constructor
      · rintro ⟨⟨row, hm, h3, -⟩, h4⟩
        refine ⟨⟨row, hm, h3⟩, fun row' hm' h5 => ?_⟩
        rcases hkinds row' hm' with h6 | h6
        · exact absurd ⟨row', hm', h5, h6⟩ h4
        · exact h6
      · rintro ⟨⟨row, hm, h3⟩, h4⟩
        refine ⟨⟨row, hm, h3, h4 row hm h3⟩, ?_⟩
        rintro ⟨row', hm', h5, h6⟩
        rw [h4 row' hm' h5] at h6
        exact absurd h6 (by decide)

/-- C123, an example: C has a complex definition only, D a simple one, and there is one error. -/
example : (match checkSymbols asciiUpper (fun _ _ _ => []) twoFs 5 true [py "A.arg", py "B.arg"],
      listSymbols asciiUpper twoFs 7 [py "A.arg", py "B.arg"] with
    | .ok rep, .ok l =>
      decide (rep.undefined.map (·.1) = [py "C"] ∧ rep.fileErrs = [1, 0] ∧ .errors 1 ∈ l ∧
        (rows [] [] [] l).map (fun r => (r.tag, r.kind)) =
          [(py "C", py "complex"), (py "D", py "simple")])
    | _, _ => false) = true := by decide +kernel

/-- C122 and C123, an example with a file named like a kind: the second and the third line are
reported and not recorded, see C188; the tools agree that A is simple and that there are two errors. -/
example : (match (fun f => if f = py "complex.arg" then some (py
        "        A          TN\n        A          ASSIGN\n        A          ASSIGN\n") else none
        : FileSystem) with
    | fs => match findSymbols asciiUpper (fun _ _ _ => []) fs 5 false false false false
          [py "A", py "complex.arg"],
        checkSymbols asciiUpper (fun _ _ _ => []) fs 5 true [py "complex.arg"],
        listSymbols asciiUpper fs 7 [py "complex.arg"] with
      | .ok (some (.defs d)), .ok rep, .ok l =>
        decide (d.map (·.1) = [py "complex"] ∧ rep.undefined.map (·.1) = [] ∧ rep.fileErrs = [2] ∧
          .errors 2 ∈ l ∧ (rows [] [] [] l).map (fun r => (r.tag, r.kind)) =
            [(py "A", py "simple")])
      | _, _, _ => false) = true := by decide +kernel

end H800
