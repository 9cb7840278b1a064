import Verif.Lemmas.Tools

/-!
Properties C80-C82, C90, C91: check-instructions and list-instructions.
-/

namespace H800

open Spec

/-! ### Examples used below -/

/-- A deck with a known instruction, a masked one, a starred one and an unknown one. -/
def toolFs : FileSystem := fun f =>
  if f = py "T.arg" then some (py
    "        A          TN\n                   TN,M\n       *           TX\n                   QQ\n        B\n")
  else if f = py "E.arg" then some []
  else none

/-- The lines of the example. -/
def toolOut : List Src :=
  [⟨py "T.arg", 1, py "        A          TN\n"⟩, ⟨py "T.arg", 2, py "                   TN,M\n"⟩,
   ⟨py "T.arg", 3, py "       *           TX\n"⟩, ⟨py "T.arg", 4, py "                   QQ\n"⟩,
   ⟨py "T.arg", 5, py "        B\n"⟩]

theorem toolFs_sources : Sources toolFs [py "T.arg"] toolOut := by
  refine ⟨[toolOut], .cons ?_ .nil, by simp⟩
  refine ⟨_, rfl, ?_⟩
  have : ∀ {text : Str} (ls : List Str), readlines text = ls →
      Expand toolFs (py "T.arg") 1 ls toolOut →
      Expand toolFs (py "T.arg") 1 (readlines text) toolOut := fun ls h1 h2 => h1 ▸ h2
  refine this (toolOut.map (·.text)) (by decide) ?_
  iterate 5 refine .plain (by decide) (by decide) ?_
  exact .nil _ _

theorem emptyFs_sources : Sources toolFs [py "E.arg"] [] :=
  ⟨[[]], .cons ⟨[], rfl, .nil _ _⟩ .nil, rfl⟩

/-! ### check-instructions -/

open Classical in
/-- C80: the accounting of check-instructions. Every source line is counted; a line with an
instruction is counted once in the instruction total, and is starred, or counted under its mnemonic,
or an error; the errors are the un-starred lines whose instruction is not in `INSTRUCTIONS`, and
they are the ones reported, in order. The options make no difference. -/
theorem C80_counts (fs : FileSystem) (fuel : Nat) (opts : CheckOpts) (files : List Str)
    (st : CheckState) (h : checkFiles fs fuel opts files CheckState.init = .ok st) :
    ∃ out, Sources fs files out ∧
      st.linecount = out.length ∧
      st.instrcount = (out.filter fun s => decide (∃ i, HasInstr s i)).length ∧
      (∀ m n, dget st.instrtab m = some n ↔ m ∈ INSTRUCTIONS ∧
        n = (out.filter fun s => decide (¬ Starred s ∧ HasInstr s m)).length) ∧
      st.errcount = (out.filter fun s => decide (BadInstr s)).length ∧
      st.instrcount = (st.instrtab.map (·.2)).sum + st.errcount +
        (out.filter fun s => decide (Starred s ∧ ∃ i, HasInstr s i)).length ∧
      (invalids st.out).map (fun c => (c.file, c.line, c.text)) =
        (out.filter fun s => decide (BadInstr s)).map
          fun s => (some s.file, (s.num : Int), s.text.filter (· ≠ '\n')) := by
  obtain ⟨out, hout, rfl⟩ := foldFiles_ok h
  have hk : CheckState.init.instrtab.map (·.1) = INSTRUCTIONS := by
    rw [init_tab, List.map_map]; simp [Function.comp_def]
  obtain ⟨h1, h2, h3, -, h5, h6, h7⟩ := checkFold_spec opts (out.map srcCard) CheckState.init hk
  have hsome : ∀ s, (fun c => (instOf c).isSome) (srcCard s) = true ↔ ∃ i, HasInstr s i := by
    intro s
    simp only [Option.isSome_iff_exists, instOf_iff]
  have hstar : ∀ s, (fun c => star c && (instOf c).isSome) (srcCard s) = true ↔
      Starred s ∧ ∃ i, HasInstr s i := by
    intro s
    simp only [Bool.and_eq_true, star_iff]
    exact and_congr Iff.rfl (hsome s)
  have hsum0 : (CheckState.init.instrtab.map (·.2)).sum = 0 := by
    rw [init_tab, List.map_map]; simp [Function.comp_def]
  have e1 : CheckState.init.linecount = 0 := rfl
  have e2 : CheckState.init.instrcount = 0 := rfl
  have e3 : CheckState.init.errcount = 0 := rfl
  refine ⟨out, hout, ?_, ?_, ?_, ?_, ?_, ?_⟩
  · rw [h1, e1]; simp
  · rw [h2, e2, count_src hsome]; omega
  · intro m n
    rw [h5, count_src (isInst_iff m)]
    rw [init_tab]
    by_cases hm : m ∈ INSTRUCTIONS
    · have : dget (INSTRUCTIONS.map fun i => (i, 0)) m = some 0 := by
        apply dget_of_mem
        · rw [List.map_map]; simpa [Function.comp_def] using instructions_nodup
        · exact List.mem_map.2 ⟨m, hm, rfl⟩
      rw [this]
      simp only [Option.map_some, Option.some.injEq, hm, true_and, Nat.zero_add]
      exact ⟨Eq.symm, Eq.symm⟩
    · have : dget (INSTRUCTIONS.map fun i => (i, 0)) m = none := by
        rw [dget_none, List.map_map]
        simpa [Function.comp_def] using hm
      rw [this]
      simp [hm]
  · rw [h3, e3, count_src badInst_iff]; omega
  · rw [h3, e3, h2, e2]
    rw [hsum0] at h6
    have := count_src (p := fun c => star c && (instOf c).isSome) hstar out
    omega
  · rw [h7]
    have e7 : CheckState.init.out = [] := rfl
    rw [e7, List.nil_append, (cardMsgs_sets opts _).2.2, filter_src badInst_iff, List.map_map]
    rfl

/-- C80: for files that can be read the script gets that far. -/
theorem C80_total (fs : FileSystem) (opts : CheckOpts) (files : List Str)
    (hne : ∀ f ∈ files, f ≠ []) (out : List Src) (h : Sources fs files out) :
    ∃ n st, ∀ m, n ≤ m → checkFiles fs m opts files CheckState.init = .ok st := by
  obtain ⟨n, hn⟩ := foldFiles_complete (σ := CheckState) hne h
  exact ⟨n, _, fun m hm => hn m hm _ _⟩

/-- C80, an example: three instructions are counted, one of them starred, and one is unknown. -/
example : ∃ st, checkFiles toolFs 10 ⟨false, true, false, false, false, false⟩ [py "T.arg"]
    CheckState.init = .ok st ∧ st.linecount = 5 ∧ st.instrcount = 4 ∧ st.errcount = 1 ∧
    dget st.instrtab (py "TN") = some 2 ∧ dget st.instrtab (py "TX") = some 0 := by
  refine ⟨_, rfl, ?_⟩
  decide +kernel

/-- C81, in full: the frequency report is printed for any input. -/
def C81_statement : Prop := ∀ (fs : FileSystem) (opts : CheckOpts) (files : List Str)
  (out : List Src), files ≠ [] → (∀ f ∈ files, f ≠ []) → Sources fs files out →
  ∃ n, ∀ m, n ≤ m → ∃ msgs, checkInstructions fs m opts files = .ok msgs

/-- C81, what holds: the script fails exactly when `--count` is given without `--unused` and there is
no instruction at all; then it divides by zero. -/
theorem C81_exact_partial (fs : FileSystem) (opts : CheckOpts) (files : List Str)
    (out : List Src) (hf : files ≠ []) (hne : ∀ f ∈ files, f ≠ []) (h : Sources fs files out) :
    ∃ n, ∀ m, n ≤ m →
      ((opts.count = true ∧ opts.unused = false ∧ ∀ s ∈ out, ∀ i, ¬ HasInstr s i) →
        checkInstructions fs m opts files = .error .zeroDivision) ∧
      (¬ (opts.count = true ∧ opts.unused = false ∧ ∀ s ∈ out, ∀ i, ¬ HasInstr s i) →
        ∃ msgs, checkInstructions fs m opts files = .ok msgs) := by
  obtain ⟨n, hn⟩ := foldFiles_complete (σ := CheckState) hne h
  refine ⟨n, fun m hm => ?_⟩
  have hlen : ¬ files.length < 1 := by
    cases files with
    | nil => exact absurd rfl hf
    | cons f fs => simp
  have hck : checkFiles fs m opts files CheckState.init =
      .ok ((out.map srcCard).foldl (checkStep opts) CheckState.init) := hn m hm _ _
  have hk : CheckState.init.instrtab.map (·.1) = INSTRUCTIONS := by
    rw [init_tab, List.map_map]; simp [Function.comp_def]
  obtain ⟨h1, h2, h3, h4, h5, h6, h7⟩ :=
    checkFold_spec opts (out.map srcCard) CheckState.init hk
  generalize (out.map srcCard).foldl (checkStep opts) CheckState.init = st at *
  have e2 : CheckState.init.instrcount = 0 := rfl
  have hzero : st.instrcount = 0 ↔ ∀ s ∈ out, ∀ i, ¬ HasInstr s i := by
    rw [h2, e2, Nat.zero_add, List.countP_eq_zero]
    constructor
    · intro hall s hs i hi
      apply hall _ (List.mem_map.2 ⟨s, hs, rfl⟩)
      rw [(instOf_iff s i).2 hi]; rfl
    · intro hall c hc
      obtain ⟨s, hs, rfl⟩ := List.mem_map.1 hc
      rw [Option.isSome_iff_exists]
      rintro ⟨i, hi⟩
      exact hall s hs i ((instOf_iff s i).1 hi)
  have hsum0 : (CheckState.init.instrtab.map (·.2)).sum = 0 := by
    rw [init_tab, List.map_map]; simp [Function.comp_def]
  have hnd : (st.instrtab.map (·.1)).Nodup := h4 ▸ instructions_nodup
  have hnil : st.instrtab ≠ [] := by
    intro e
    rw [e] at h4
    exact absurd h4 (by decide)
  have hall : st.instrcount = 0 → ∀ p ∈ st.instrtab, p.2 = 0 := by
    intro h0 p hp
    have hs : (st.instrtab.map (·.2)).sum = 0 := by rw [h2, e2] at h0; omega
    have := List.sum_eq_zero_iff.1 hs p.2 (List.mem_map.2 ⟨p, hp, rfl⟩)
    exact this
  have hperm : (if opts.sort = true then freqtab st.instrtab else byName st.instrtab).Perm
      st.instrtab := by
    split
    · exact freqtab_perm _
    · exact byName_perm hnd
  rw [← hzero]
  unfold checkInstructions checkReport
  rw [if_neg hlen, hck]
  simp only [py_bind_ok]
  by_cases hc : opts.count = true
  · simp only [hc, if_true, true_and]
    constructor
    · rintro ⟨hu, h0⟩
      rw [h0, freqLines_zero opts hu _ (fun e => hnil (List.Perm.nil_eq (e ▸ hperm)).symm)]
      rfl
    · intro hn
      rw [freqLines_ok]
      · exact ⟨_, rfl⟩
      · by_cases h0 : st.instrcount = 0
        · right
          intro p hp
          refine ⟨?_, hall h0 p (hperm.mem_iff.1 hp)⟩
          cases hu : opts.unused
          · exact absurd ⟨hu, h0⟩ hn
          · rfl
        · exact Or.inl h0
  · have hc' : opts.count = false := by simpa using hc
    simp only [hc']
    exact ⟨fun hf => absurd hf.1 (by simp), fun _ => ⟨_, rfl⟩⟩

/-- C81 is false: on an empty file `--count` divides by zero. -/
theorem C81_refuted : ¬ C81_statement := by
  intro h
  obtain ⟨n, hn⟩ := h toolFs ⟨false, true, false, false, false, false⟩ [py "E.arg"] []
    (by simp) (by decide) emptyFs_sources
  obtain ⟨k, hk⟩ := C81_exact_partial toolFs ⟨false, true, false, false, false, false⟩
    [py "E.arg"] [] (by simp) (by decide) emptyFs_sources
  obtain ⟨msgs, hm⟩ := hn (max n k) (by omega)
  rw [(hk (max n k) (by omega)).1 ⟨rfl, rfl, by simp⟩] at hm
  cases hm

/-- What the reports say, in terms of the counts. -/
theorem report_parts (fs : FileSystem) (fuel : Nat) (opts : CheckOpts) (files : List Str)
    (msgs : List CheckMsg) (h : checkInstructions fs fuel opts files = .ok msgs) :
    ∃ st, checkFiles fs fuel opts files CheckState.init = .ok st ∧
      st.instrtab.map (·.1) = INSTRUCTIONS ∧
      freqs msgs = (if opts.count then
        ((if opts.sort then freqtab st.instrtab else byName st.instrtab).filter
          fun p => !opts.unused || decide (p.2 ≠ 0)).map (fun p => (p.1, p.2, st.instrcount))
        else []) ∧
      unuseds msgs = (if opts.unused then
        ((byName st.instrtab).filter fun p => p.2 = 0).map (·.1) else []) ∧
      msgs.getLast? = some (.errors st.errcount) ∧
      (opts.count = true → .lines st.linecount ∈ msgs ∧ .total st.instrcount ∈ msgs) := by
  unfold checkInstructions at h
  split at h
  · cases h
  · cases hck : checkFiles fs fuel opts files CheckState.init with
    | error e => rw [hck] at h; cases h
    | ok st =>
      rw [hck] at h
      simp only [py_bind_ok] at h
      have hk : CheckState.init.instrtab.map (·.1) = INSTRUCTIONS := by
        rw [init_tab, List.map_map]; simp [Function.comp_def]
      obtain ⟨out, -, hst⟩ := foldFiles_ok hck
      obtain ⟨-, -, -, h4, -, -, h7⟩ := checkFold_spec opts (out.map srcCard) CheckState.init hk
      rw [← hst] at h4 h7
      have e7 : CheckState.init.out = [] := rfl
      rw [e7, List.nil_append] at h7
      obtain ⟨c1, c2, -⟩ := cardMsgs_sets opts (out.map srcCard)
      rw [← h7] at c1 c2
      obtain ⟨u1, u2, -⟩ := map_unused ((byName st.instrtab).filter fun p => decide (p.2 = 0))
      refine ⟨st, rfl, h4, ?_⟩
      unfold checkReport at h
      have hun : ∀ b : Bool, freqs (if b = true then CheckMsg.unusedHeader ::
            ((byName st.instrtab).filter fun p => decide (p.2 = 0)).map (fun p => .unused p.1)
            else []) = [] ∧
          unuseds (if b = true then CheckMsg.unusedHeader ::
            ((byName st.instrtab).filter fun p => decide (p.2 = 0)).map (fun p => .unused p.1)
            else []) = if b = true then
              ((byName st.instrtab).filter fun p => decide (p.2 = 0)).map (·.1) else [] := by
        intro b
        cases b
        · exact ⟨rfl, rfl⟩
        · simp only [if_true, freqs, unuseds, u1, u2, and_self]
      obtain ⟨v1, v2⟩ := hun opts.unused
      by_cases hc : opts.count = true
      · simp only [hc, if_true] at h ⊢
        have hd : ∀ d l, freqLines opts st.instrcount d = .ok l →
            l = ((d.filter fun p => !opts.unused || decide (p.2 ≠ 0)).map
              fun p => CheckMsg.freq p.1 p.2 st.instrcount) := by
          intro d l hl
          by_cases h0 : st.instrcount = 0 ∧ ¬ ∀ p ∈ d, opts.unused = true ∧ p.2 = 0
          · exfalso
            obtain ⟨h0, hn⟩ := h0
            apply hn
            clear hn hst
            induction d generalizing l with
            | nil => simp
            | cons p d ih =>
              obtain ⟨i, k⟩ := p
              unfold freqLines at hl
              split at hl
              · cases hl
              · rename_i hb
                intro q hq
                rcases List.mem_cons.1 hq with rfl | hq
                · revert hb; cases opts.unused <;> simp
                · exact ih _ hl q hq
          · rw [freqLines_ok opts _ d (by
              by_cases h1 : st.instrcount = 0
              · right; by_contra hn; exact h0 ⟨h1, hn⟩
              · exact Or.inl h1)] at hl
            cases hl; rfl
        cases hl : freqLines opts st.instrcount
            (if opts.sort = true then freqtab st.instrtab else byName st.instrtab) with
        | error e => rw [hl] at h; cases h
        | ok l =>
          rw [hl] at h
          simp only [py_bind_ok, py_pure] at h
          cases h
          have := hd _ _ hl
          subst this
          obtain ⟨f1, f2, -⟩ := map_freq st.instrcount
            ((if opts.sort = true then freqtab st.instrtab else byName st.instrtab).filter
              fun p => !opts.unused || decide (p.2 ≠ 0))
          refine ⟨?_, ?_, List.getLast?_concat .., by simp⟩
          · simp only [freqs_append, c1, v1, freqs, f1, List.nil_append, List.append_nil]
          · simp only [unuseds_append, c2, v2, unuseds, f2, List.nil_append, List.append_nil]
      · simp only [hc] at h ⊢
        simp only [py_bind_ok, py_pure] at h
        cases h
        refine ⟨?_, ?_, List.getLast?_concat .., fun hf => absurd hf (by simp)⟩
        · simp only [freqs_append, c1, v1, freqs, List.nil_append]; rfl
        · simp only [unuseds_append, c2, v2, unuseds, List.nil_append, List.append_nil]

open Classical in
/-- C90: the frequency report has one line for each instruction of `INSTRUCTIONS` (with `--unused`,
for each that occurs), with the number of un-starred lines that have it and the total; with `--sort`
by decreasing count, otherwise by name. Without `--count` there is none. -/
theorem C90_frequencies (fs : FileSystem) (fuel : Nat) (opts : CheckOpts) (files : List Str)
    (msgs : List CheckMsg) (h : checkInstructions fs fuel opts files = .ok msgs) :
    ∃ out, Sources fs files out ∧
      (opts.count = false → freqs msgs = []) ∧
      (opts.count = true →
        ((freqs msgs).map (·.1)).Nodup ∧
        (∀ i n t, (i, n, t) ∈ freqs msgs ↔ i ∈ INSTRUCTIONS ∧
          n = (out.filter fun s => decide (¬ Starred s ∧ HasInstr s i)).length ∧
          t = (out.filter fun s => decide (∃ j, HasInstr s j)).length ∧
          (opts.unused = true → n ≠ 0)) ∧
        (opts.sort = true → (freqs msgs).Pairwise fun a b => b.2.1 ≤ a.2.1) ∧
        (opts.sort = false → (freqs msgs).Pairwise fun a b => StrLt a.1 b.1)) := by
  obtain ⟨st, hck, hkeys, hfr, -⟩ := report_parts fs fuel opts files msgs h
  obtain ⟨out, hout, -, hi, htab, -⟩ := C80_counts fs fuel opts files st hck
  refine ⟨out, hout, fun hc => by simpa [hc] using hfr, fun hc => ?_⟩
  rw [hfr]
  simp only [hc, if_true]
  have hnd : (st.instrtab.map (·.1)).Nodup := hkeys ▸ instructions_nodup
  have hperm : (if opts.sort = true then freqtab st.instrtab else byName st.instrtab).Perm
      st.instrtab := by
    split
    · exact freqtab_perm _
    · exact byName_perm hnd
  refine ⟨?_, ?_, ?_, ?_⟩
  · rw [List.map_map]
    have : ((fun x : Str × Nat × Nat => x.1) ∘ fun p : Str × Nat => (p.1, p.2, st.instrcount)) =
      fun p => p.1 := rfl
    rw [this]
    refine List.Nodup.sublist (List.Sublist.map _ List.filter_sublist) ?_
    exact ((hperm.map (·.1)).nodup_iff).2 hnd
  · intro i n t
    rw [List.mem_map]
    constructor
    · rintro ⟨⟨j, k⟩, hp, e⟩
      obtain ⟨rfl, rfl, rfl⟩ : j = i ∧ k = n ∧ st.instrcount = t := by simpa using e
      obtain ⟨hp, hu⟩ := List.mem_filter.1 hp
      obtain ⟨h1, h2⟩ := (htab j k).1 ((dget_iff_mem hnd).2 (hperm.mem_iff.1 hp))
      refine ⟨h1, h2, hi, fun he => ?_⟩
      simpa [he] using hu
    · rintro ⟨h1, h2, h3, h4⟩
      refine ⟨(i, n), List.mem_filter.2 ⟨?_, ?_⟩, ?_⟩
      · exact hperm.mem_iff.2 ((dget_iff_mem hnd).1 ((htab i n).2 ⟨h1, h2⟩))
      · cases hu : opts.unused
        · simp
        · simpa using h4 hu
      · rw [h3, ← hi]
  · intro hs
    rw [List.pairwise_map]
    simp only [hs, if_true]
    exact (freqtab_sorted _).sublist List.filter_sublist
  · intro hs
    rw [List.pairwise_map]
    simp only [hs, if_false, Bool.false_eq_true]
    have h1 : ((byName st.instrtab).map (·.1)).Pairwise StrLt := by
      rw [byName_keys]
      exact (pySortedStr_pairwise _).and ((pySortedStr_perm _).nodup_iff.2 hnd)
    exact (List.pairwise_map.1 h1).sublist List.filter_sublist

open Classical in
/-- C91: `--unused` lists, sorted, exactly the instructions of `INSTRUCTIONS` that occur on no
un-starred line. -/
theorem C91_unused (fs : FileSystem) (fuel : Nat) (opts : CheckOpts) (files : List Str)
    (msgs : List CheckMsg) (h : checkInstructions fs fuel opts files = .ok msgs) :
    ∃ out, Sources fs files out ∧
      (opts.unused = false → unuseds msgs = []) ∧
      (opts.unused = true → (unuseds msgs).Pairwise StrLt ∧
        ∀ i, i ∈ unuseds msgs ↔ i ∈ INSTRUCTIONS ∧ ∀ s ∈ out, HasInstr s i → Starred s) := by
  obtain ⟨st, hck, hkeys, -, hun, -⟩ := report_parts fs fuel opts files msgs h
  obtain ⟨out, hout, -, -, htab, -⟩ := C80_counts fs fuel opts files st hck
  refine ⟨out, hout, fun hu => by simpa [hu] using hun, fun hu => ?_⟩
  rw [hun]
  simp only [hu, if_true]
  have hnd : (st.instrtab.map (·.1)).Nodup := hkeys ▸ instructions_nodup
  have h1 : ((byName st.instrtab).map (·.1)).Pairwise StrLt := by
    rw [byName_keys]
    exact (pySortedStr_pairwise _).and ((pySortedStr_perm _).nodup_iff.2 hnd)
  refine ⟨h1.sublist (List.Sublist.map _ List.filter_sublist), fun i => ?_⟩
  have hz : dget st.instrtab i = some 0 ↔ i ∈ INSTRUCTIONS ∧ ∀ s ∈ out, HasInstr s i → Starred s := by
    rw [htab]
    refine and_congr Iff.rfl ?_
    rw [eq_comm, List.length_eq_zero_iff, List.filter_eq_nil_iff]
    simp only [decide_eq_true_eq, not_and]
    exact ⟨fun h s hs hi => by by_contra hn; exact h s hs hn hi, fun h s hs hn hi => hn (h s hs hi)⟩
  rw [← hz, dget_iff_mem hnd, ← (byName_perm hnd).mem_iff, List.mem_map]
  constructor
  · rintro ⟨⟨j, k⟩, hp, rfl⟩
    obtain ⟨hp, h0⟩ := List.mem_filter.1 hp
    have : k = 0 := by simpa using h0
    rw [← this]; exact hp
  · intro hp
    exact ⟨(i, 0), List.mem_filter.2 ⟨hp, by simp⟩, rfl⟩

/-- C90, C91, an example. -/
example : ∃ msgs, checkInstructions toolFs 10 ⟨false, true, false, false, false, true⟩
    [py "T.arg"] = .ok msgs ∧ freqs msgs = [(py "TN", 2, 4)] ∧ py "TX" ∈ unuseds msgs ∧
    py "TN" ∉ unuseds msgs := by
  refine ⟨_, rfl, ?_⟩
  decide +kernel

/-! ### list-instructions -/

open Classical in
/-- C82: for an opcode whose part before the first comma is known, list-instructions prints the lines
that match it (see `Matches`), in the order of the source, without their newlines; with `--details`
after file name and line number. -/
theorem C82_lists (fs : FileSystem) (fuel : Nat) (details : Bool) (opcode : Str)
    (files : List Str) (lines : List Str)
    (h : listInstructions fs fuel details (opcode :: files) = .ok lines) :
    ∃ out, Sources fs files out ∧
      List.Forall₂ (fun s l =>
        (details = false → l = s.text.filter (· ≠ '\n')) ∧
        (details = true → ∃ a b, LeftIn 48 s.file a ∧ RightIn 6 (numeral 10 s.num) b ∧
          l = a ++ ' ' :: b ++ ' ' :: s.text.filter (· ≠ '\n')))
        (out.filter fun s => decide (Matches opcode s)) lines := by
  unfold listInstructions at h
  simp only at h
  by_cases hc : INSTRUCTIONS.contains
      (if opcode.contains ',' = true then splitFirst opcode ',' else opcode) = true
  swap
  · rw [if_pos hc] at h; cases h
  · rw [if_neg (not_not.2 hc)] at h
    cases hd : files.mapM (deckCards fs fuel) with
    | error e => rw [hd] at h; cases h
    | ok decks =>
      rw [hd, py_bind_ok, py_pure] at h
      cases h
      obtain ⟨out, h1, h2⟩ := mapFiles_ok hd
      refine ⟨out, h1, ?_⟩
      have e : (decks.flatMap fun cards => (cards.filter (listed opcode)).map (listLine details)) =
          ((decks.flatten).filter (listed opcode)).map (listLine details) := by
        clear h2 hd
        induction decks with
        | nil => rfl
        | cons d ds ih => simp [List.flatMap_cons, ih]
      rw [e, h2, filter_src (listed_iff opcode), List.map_map]
      generalize out.filter (fun s => decide (Matches opcode s)) = ms
      have hpad : ∀ (w : Nat) (s : Str), LeftIn w s (padRight w s) := by
        intro w s
        refine ⟨w - s.length, rfl, fun h => ?_, fun h => by omega⟩
        simp [padRight]; omega
      have hpadl : ∀ (w : Nat) (s : Str), RightIn w s (padLeft ' ' w s) := by
        intro w s
        refine ⟨w - s.length, rfl, fun h => ?_, fun h => by omega⟩
        simp [padLeft]; omega
      induction ms with
      | nil => exact .nil
      | cons s ms ih =>
        refine .cons ⟨fun hd => ?_, fun hd => ?_⟩ ih
        · simp [listLine, hd, srcCard, remove]
        · refine ⟨_, _, hpad 48 s.file, hpadl 6 _, ?_⟩
          have hs : ¬ ((s.num : Int) < 0) := by omega
          simp [listLine, hd, srcCard, remove, pyStr, hs]

/-- C82: which opcodes are accepted; the files need only be readable. -/
theorem C82_total (fs : FileSystem) (details : Bool) (opcode p : Str) (files : List Str)
    (hne : ∀ f ∈ files, f ≠ []) (out : List Src) (h : Sources fs files out)
    (hp : BeforeFirst ',' opcode p) :
    (p ∈ INSTRUCTIONS → ∃ n lines, ∀ m, n ≤ m →
      listInstructions fs m details (opcode :: files) = .ok lines) ∧
    (p ∉ INSTRUCTIONS → ∀ m, listInstructions fs m details (opcode :: files) =
      .error .systemExit) := by
  have hcmd : (if opcode.contains ',' = true then splitFirst opcode ',' else opcode) = p := by
    rw [← beforeFirst_unique hp]
    split
    · rfl
    · rename_i h; rw [splitFirst_id (by rw [← contains_comma]; exact h)]
  unfold listInstructions
  simp only [hcmd]
  simp only [List.contains_iff_mem]
  constructor
  · intro hin
    obtain ⟨n, hn⟩ := mapFiles_complete hne h
    refine ⟨n, ((out.map srcCard).filter (listed opcode)).map (listLine details), fun m hm => ?_⟩
    obtain ⟨decks, h1, h2⟩ := hn m hm
    rw [if_neg (not_not.2 hin), h1, ← h2]
    simp only [py_bind_ok, py_pure]
    congr 1
    clear h1 h2
    induction decks with
    | nil => rfl
    | cons d ds ih => simp [List.flatMap_cons, ih]
  · intro hn m
    rw [if_pos hn]

example : listInstructions toolFs 10 false [py "TN", py "T.arg"] =
    .ok [py "        A          TN", py "                   TN,M"] := rfl

example : listInstructions toolFs 10 true [py "TN,", py "T.arg"] =
    .ok [padRight 48 (py "T.arg") ++ py "      2                    TN,M"] := rfl

end H800
