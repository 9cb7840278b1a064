import Verif.Model.Trace
import Verif.Props.Tools
import Verif.Props.SymTools

/-!
Properties C137 and C138: what the instruction tools have printed when they stop with an exception,
and that parse prints about instructions what check-instructions prints.
-/

namespace H800

open Spec

/-! ### Auxiliary facts -/

theorem checkFilesRun_ok {fs : FileSystem} {fuel : Nat} {opts : CheckOpts} {files : List Str}
    {st st' : CheckState} : checkFilesRun fs fuel opts files st = (st', .ok ()) ↔
      checkFiles fs fuel opts files st = .ok st' := by
  induction files generalizing st with
  | nil =>
    simp only [checkFilesRun, checkFiles, List.foldlM_nil]
    exact ⟨fun h => by cases h; rfl, fun h => by cases h; rfl⟩
  | cons f files ih =>
    simp only [checkFilesRun]
    unfold checkFiles at ih ⊢
    rw [List.foldlM_cons]
    cases deckCards fs fuel f with
    | error e => exact ⟨fun h => (by cases h), fun h => by cases h⟩
    | ok cs => exact ih

theorem checkFilesRun_error {fs : FileSystem} {fuel : Nat} {opts : CheckOpts} {files : List Str}
    {st : CheckState} {e : PyErr} : (∃ st', checkFilesRun fs fuel opts files st = (st', .error e)) ↔
      checkFiles fs fuel opts files st = .error e := by
  induction files generalizing st with
  | nil =>
    simp only [checkFilesRun, checkFiles, List.foldlM_nil]
    exact ⟨fun ⟨_, h⟩ => (by cases h), fun h => by cases h⟩
  | cons f files ih =>
    simp only [checkFilesRun]
    unfold checkFiles at ih ⊢
    rw [List.foldlM_cons]
    cases deckCards fs fuel f with
    | error e' => exact ⟨fun ⟨_, h⟩ => by cases h; rfl, fun h => by cases h; exact ⟨_, rfl⟩⟩
    | ok cs => exact ih

theorem checkFilesRun_append {fs : FileSystem} {fuel : Nat} {opts : CheckOpts}
    {pre post : List Str} {st st' : CheckState}
    (h : checkFilesRun fs fuel opts pre st = (st', .ok ())) :
    checkFilesRun fs fuel opts (pre ++ post) st = checkFilesRun fs fuel opts post st' := by
  induction pre generalizing st with
  | nil => cases h; rfl
  | cons f files ih =>
    simp only [checkFilesRun, List.cons_append] at h ⊢
    cases hd : deckCards fs fuel f with
    | error e => rw [hd] at h; cases h
    | ok cs => rw [hd] at h; exact ih h

theorem freqLinesRun_ok {opts : CheckOpts} {n : Nat} {d : Dict Str Nat} {l : List CheckMsg} :
    freqLinesRun opts n d = (l, .ok ()) ↔ freqLines opts n d = .ok l := by
  induction d generalizing l with
  | nil =>
    simp only [freqLinesRun, freqLines]
    exact ⟨fun h => by cases h; rfl, fun h => by cases h; rfl⟩
  | cons p d ih =>
    obtain ⟨i, k⟩ := p
    simp only [freqLinesRun, freqLines]
    by_cases hc : ((opts.unused && decide (k ≠ 0)) || !opts.unused) = true
    · rw [if_pos hc, if_pos hc]
      by_cases hn : n = 0
      · rw [if_pos hn, if_pos hn]
        exact ⟨fun h => (by cases h), fun h => by cases h⟩
      · rw [if_neg hn, if_neg hn]
        cases hr : freqLines opts n d with
        | error e =>
          refine ⟨fun h => ?_, fun h => by cases h⟩
          cases hq : freqLinesRun opts n d with
          | mk a b =>
            rw [hq] at h
            cases h
            rw [ih.1 hq] at hr
            cases hr
        | ok l' =>
          rw [ih.2 hr]
          exact ⟨fun h => by cases h; rfl, fun h => by cases h; rfl⟩
    · rw [if_neg hc, if_neg hc]
      exact ih

theorem freqLinesRun_error {opts : CheckOpts} {n : Nat} {d : Dict Str Nat} {e : PyErr} :
    (∃ l, freqLinesRun opts n d = (l, .error e)) ↔ freqLines opts n d = .error e := by
  cases hr : freqLines opts n d with
  | ok l =>
    rw [freqLinesRun_ok.2 hr]
    exact ⟨fun ⟨_, h⟩ => (by cases h), fun h => by cases h⟩
  | error e' =>
    cases hq : freqLinesRun opts n d with
    | mk l r =>
      cases r with
      | ok u => cases u; rw [freqLinesRun_ok.1 hq] at hr; cases hr
      | error e'' =>
        have : e'' = e' := by
          clear e
          induction d generalizing l with
          | nil => cases hr
          | cons p d ih =>
            obtain ⟨i, k⟩ := p
            simp only [freqLinesRun] at hq
            simp only [freqLines] at hr
            by_cases hc : ((opts.unused && decide (k ≠ 0)) || !opts.unused) = true
            · rw [if_pos hc] at hq hr
              by_cases hn : n = 0
              · rw [if_pos hn] at hq hr
                cases hq; cases hr; rfl
              · rw [if_neg hn] at hq hr
                cases hr' : freqLines opts n d with
                | ok l' => rw [hr'] at hr; cases hr
                | error e1 =>
                  rw [hr'] at hr
                  cases hr
                  cases hq' : freqLinesRun opts n d with
                  | mk a b =>
                    rw [hq'] at hq
                    cases hq
                    exact ih hr' _ hq'
            · rw [if_neg hc] at hq hr
              exact ih hr _ hq
        subst this
        exact ⟨fun ⟨_, h⟩ => by cases h; rfl, fun h => by cases h; exact ⟨_, rfl⟩⟩

theorem checkRun_ok {fs : FileSystem} {fuel : Nat} {opts : CheckOpts} {args : List Str}
    {msgs : List CheckMsg} : checkInstructions fs fuel opts args = .ok msgs →
      checkRun fs fuel opts args = (msgs, .ok ()) := by
  unfold checkInstructions checkRun
  by_cases ha : args.length < 1
  · rw [if_pos ha, if_pos ha]; intro h; cases h
  · rw [if_neg ha, if_neg ha]
    intro h
    cases hf : checkFiles fs fuel opts args CheckState.init with
    | error e => rw [hf] at h; cases h
    | ok st =>
      rw [hf] at h
      rw [checkFilesRun_ok.2 hf]
      simp only [py_bind_ok] at h
      unfold checkReport at h
      by_cases hc : opts.count = true
      · rw [if_pos hc] at h
        simp only [if_pos hc]
        cases hl : freqLines opts st.instrcount
            (if opts.sort then freqtab st.instrtab else byName st.instrtab) with
        | error e => rw [hl] at h; cases h
        | ok l =>
          rw [hl] at h
          rw [freqLinesRun_ok.2 hl]
          cases h
          simp [checkTail]
      · rw [if_neg hc] at h
        simp only [if_neg hc]
        cases h
        simp [checkTail]

theorem checkRun_error {fs : FileSystem} {fuel : Nat} {opts : CheckOpts} {args : List Str}
    {e : PyErr} : checkInstructions fs fuel opts args = .error e →
      ∃ out, checkRun fs fuel opts args = (out, .error e) := by
  unfold checkInstructions checkRun
  by_cases ha : args.length < 1
  · rw [if_pos ha, if_pos ha]; intro h; cases h; exact ⟨_, rfl⟩
  · rw [if_neg ha, if_neg ha]
    intro h
    cases hf : checkFiles fs fuel opts args CheckState.init with
    | error e' =>
      rw [hf] at h
      cases h
      obtain ⟨st, hst⟩ := checkFilesRun_error.2 hf
      rw [hst]
      exact ⟨_, rfl⟩
    | ok st =>
      rw [hf] at h
      rw [checkFilesRun_ok.2 hf]
      simp only [py_bind_ok] at h
      unfold checkReport at h
      by_cases hc : opts.count = true
      · rw [if_pos hc] at h
        simp only [if_pos hc]
        cases hl : freqLines opts st.instrcount
            (if opts.sort then freqtab st.instrtab else byName st.instrtab) with
        | error e =>
          rw [hl] at h
          cases h
          obtain ⟨l, hl'⟩ := freqLinesRun_error.2 hl
          rw [hl']
          exact ⟨_, rfl⟩
        | ok l => rw [hl] at h; cases h
      · rw [if_neg hc] at h
        cases h

theorem py_cases {α : Type} (x : Py α) : (∃ a, x = .ok a) ∨ ∃ e, x = .error e := by
  cases x with
  | ok a => exact Or.inl ⟨a, rfl⟩
  | error e => exact Or.inr ⟨e, rfl⟩

theorem listFilesRun_ok {fs : FileSystem} {fuel : Nat} {details : Bool} {opcode : Str}
    {files : List Str} {decks : List (List CodeCard)}
    (h : files.mapM (deckCards fs fuel) = .ok decks) (post : List Str) :
    listFilesRun fs fuel details opcode (files ++ post) =
      ((decks.flatMap fun cards => (cards.filter (listed opcode)).map (listLine details)) ++
        (listFilesRun fs fuel details opcode post).1,
        (listFilesRun fs fuel details opcode post).2) := by
  induction files generalizing decks with
  | nil => rw [mapM_nil_ok.1 h]; rfl
  | cons f files ih =>
    obtain ⟨cs, ds, h1, h2, rfl⟩ := mapM_cons_ok.1 h
    rw [List.cons_append]
    simp only [listFilesRun]
    rw [h1]
    simp only
    rw [ih h2]
    simp

theorem mapM_error_split {fs : FileSystem} {fuel : Nat} {files : List Str} {e : PyErr}
    (h : files.mapM (deckCards fs fuel) = .error e) : ∃ pre f post decks, files = pre ++ f :: post ∧
      pre.mapM (deckCards fs fuel) = .ok decks ∧ deckCards fs fuel f = .error e := by
  induction files with
  | nil => cases h
  | cons f files ih =>
    rw [List.mapM_cons] at h
    cases hd : deckCards fs fuel f with
    | error e' => rw [hd] at h; cases h; exact ⟨[], f, files, [], rfl, rfl, hd⟩
    | ok cs =>
      rw [hd] at h
      cases hm : files.mapM (deckCards fs fuel) with
      | ok ds => rw [hm] at h; cases h
      | error e' =>
        rw [hm] at h
        cases h
        obtain ⟨pre, g, post, ds, h1, h2, h3⟩ := ih hm
        exact ⟨f :: pre, g, post, cs :: ds, by rw [h1]; rfl, mapM_cons_ok.2 ⟨_, _, hd, h2, rfl⟩, h3⟩

theorem listRun_ok {fs : FileSystem} {fuel : Nat} {details : Bool} {args : List Str}
    {l : List Str} (h : listInstructions fs fuel details args = .ok l) :
    listRun fs fuel details args = (l, .ok ()) := by
  cases args with
  | nil => cases h
  | cons opcode files =>
    simp only [listInstructions] at h
    simp only [listRun]
    by_cases hc : ¬ (INSTRUCTIONS.contains
        (if opcode.contains ',' then splitFirst opcode ',' else opcode)) = true
    · rw [if_pos hc] at h; cases h
    · rw [if_neg hc] at h ⊢
      cases hm : files.mapM (deckCards fs fuel) with
      | error e => rw [hm] at h; cases h
      | ok ds =>
        rw [hm] at h
        cases h
        have := listFilesRun_ok (details := details) (opcode := opcode) hm []
        rw [List.append_nil] at this
        rw [this]
        simp [listFilesRun]

theorem listRun_error {fs : FileSystem} {fuel : Nat} {details : Bool} {args : List Str}
    {e : PyErr} (h : listInstructions fs fuel details args = .error e) :
    ∃ out, listRun fs fuel details args = (out, .error e) := by
  cases args with
  | nil => cases h; exact ⟨_, rfl⟩
  | cons opcode files =>
    simp only [listInstructions] at h
    simp only [listRun]
    by_cases hc : ¬ (INSTRUCTIONS.contains
        (if opcode.contains ',' then splitFirst opcode ',' else opcode)) = true
    · rw [if_pos hc] at h ⊢; cases h; exact ⟨_, rfl⟩
    · rw [if_neg hc] at h ⊢
      cases hm : files.mapM (deckCards fs fuel) with
      | ok ds => rw [hm] at h; cases h
      | error e' =>
        rw [hm] at h
        cases h
        obtain ⟨pre, f, post, ds, rfl, h1, h2⟩ := mapM_error_split hm
        rw [listFilesRun_ok h1]
        simp only [listFilesRun, h2]
        exact ⟨_, rfl⟩

/-! ### C137 -/

/-- C137: check-instructions ends normally or with an exception as `checkInstructions` says, and if it
ends normally its output is that of `checkInstructions`. -/
theorem C137_check_ends (fs : FileSystem) (fuel : Nat) (opts : CheckOpts) (args : List Str) :
    (∀ msgs, checkRun fs fuel opts args = (msgs, .ok ()) ↔
      checkInstructions fs fuel opts args = .ok msgs) ∧
    ∀ e, (∃ out, checkRun fs fuel opts args = (out, .error e)) ↔
      checkInstructions fs fuel opts args = .error e := by
  refine ⟨fun msgs => ⟨fun h => ?_, checkRun_ok⟩, fun e => ⟨fun ⟨out, h⟩ => ?_, checkRun_error⟩⟩
  · rcases py_cases (checkInstructions fs fuel opts args) with ⟨m, hm⟩ | ⟨e, he⟩
    · have := checkRun_ok hm
      rw [h] at this
      cases this
      exact hm
    · obtain ⟨o, ho⟩ := checkRun_error he
      rw [h] at ho
      cases ho
  · rcases py_cases (checkInstructions fs fuel opts args) with ⟨m, hm⟩ | ⟨e', he⟩
    · have := checkRun_ok hm
      rw [h] at this
      cases this
    · obtain ⟨o, ho⟩ := checkRun_error he
      rw [h] at ho
      cases ho
      exact he

/-- C137: a file that check-instructions cannot read alone stops it with the same exception wherever
it stands; by then it has printed all messages about the cards of the files before, and no report. -/
theorem C137_check_prefix (fs : FileSystem) (fuel : Nat) (opts : CheckOpts) (pre post : List Str)
    (f : Str) (e : PyErr)
    (hf : checkInstructions fs fuel { opts with count := false } [f] = .error e) :
    checkRun fs fuel opts (f :: post) = ([], .error e) ∧
    ∀ msgs, checkInstructions fs fuel { opts with count := false, unused := false } pre = .ok msgs →
      ∃ out n, msgs = out ++ [.errors n] ∧
        checkRun fs fuel opts (pre ++ f :: post) = (out, .error e) := by
  have hd : deckCards fs fuel f = .error e := by
    cases hd : deckCards fs fuel f with
    | error e' =>
      simp only [checkInstructions, checkFiles, List.foldlM_cons, hd] at hf
      rw [if_neg (by simp)] at hf
      cases hf
      rfl
    | ok cs =>
      simp only [checkInstructions, checkFiles, List.foldlM_cons, List.foldlM_nil, hd] at hf
      cases hf
  have hstep : ∀ (a b : CheckOpts), a.printOpcodes = b.printOpcodes →
      ∀ (cs : List CodeCard) (st : CheckState), st.instrtab.map (·.1) = INSTRUCTIONS →
      (cs.foldl (checkStep a) st).out = (cs.foldl (checkStep b) st).out := by
    intro a b hab cs st hk
    rw [(checkFold_spec a cs st hk).2.2.2.2.2.2, (checkFold_spec b cs st hk).2.2.2.2.2.2]
    congr 1
    congr 1
    funext c
    simp only [cardMsgs, hab]
  refine ⟨?_, fun msgs h => ?_⟩
  · simp only [checkRun, checkFilesRun, hd]
    rfl
  · unfold checkInstructions at h
    by_cases ha : pre.length < 1
    · rw [if_pos ha] at h; cases h
    · rw [if_neg ha] at h
      cases hc : checkFiles fs fuel { opts with count := false, unused := false } pre
          CheckState.init with
      | error e' => rw [hc] at h; cases h
      | ok st =>
        rw [hc] at h
        have hm : msgs = st.out ++ [.errors st.errcount] := by
          simp only [py_bind_ok, checkReport] at h
          cases h
          simp
        obtain ⟨out, hs, hst⟩ := foldFiles_ok hc
        -- the same files with the options given
        have hc' : checkFiles fs fuel opts pre CheckState.init =
            .ok ((out.map srcCard).foldl (checkStep opts) CheckState.init) := by
          rcases py_cases (checkFiles fs fuel opts pre CheckState.init) with ⟨st', h'⟩ | ⟨e', h'⟩
          · obtain ⟨out', hs', hst'⟩ := foldFiles_ok h'
            rw [h', hst', sources_unique hs' hs]
          · exfalso
            have key : ∀ (files : List Str) (a b : CheckState),
                (∃ x, checkFiles fs fuel { opts with count := false, unused := false } files a =
                  .ok x) → ∃ y, checkFiles fs fuel opts files b = .ok y := by
              intro files
              induction files with
              | nil => intro a b _; exact ⟨b, rfl⟩
              | cons g files ih =>
                intro a b ⟨x, hx⟩
                unfold checkFiles at hx ih ⊢
                rw [List.foldlM_cons] at hx ⊢
                cases hg : deckCards fs fuel g with
                | error e => rw [hg] at hx; cases hx
                | ok cs => rw [hg] at hx; exact ih _ _ ⟨x, hx⟩
            obtain ⟨y, hy⟩ := key pre _ CheckState.init ⟨st, hc⟩
            rw [h'] at hy
            cases hy
        have hk : CheckState.init.instrtab.map (·.1) = INSTRUCTIONS := by
          rw [init_tab, List.map_map]
          exact List.map_id' _
        have hout : st.out = ((out.map srcCard).foldl (checkStep opts) CheckState.init).out := by
          rw [hst]
          exact hstep { opts with count := false, unused := false } opts rfl _ _ hk
        refine ⟨st.out, st.errcount, hm, ?_⟩
        unfold checkRun
        rw [if_neg (by simp), checkFilesRun_append (checkFilesRun_ok.2 hc')]
        simp only [checkFilesRun, hd]
        rw [hout]

/-- C137: where the frequency report divides by zero (C81), the numbers of lines and of instructions
have been printed, and nothing else: neither the unused instructions nor the number of errors. -/
theorem C137_zero (fs : FileSystem) (opts : CheckOpts) (files : List Str) (out : List Src)
    (hf : files ≠ []) (hne : ∀ f ∈ files, f ≠ []) (h : Sources fs files out)
    (hc : opts.count = true) (hu : opts.unused = false) (hi : ∀ s ∈ out, ∀ i, ¬ HasInstr s i) :
    ∃ n, ∀ m, n ≤ m → checkRun fs m opts files =
      ([.lines out.length, .total 0], .error .zeroDivision) := by
  obtain ⟨n, hn⟩ := foldFiles_complete hne h
  refine ⟨n, fun m hm => ?_⟩
  have h1 : checkFiles fs m opts files CheckState.init =
      .ok ((out.map srcCard).foldl (checkStep opts) CheckState.init) := hn m hm _ _
  have hk : CheckState.init.instrtab.map (·.1) = INSTRUCTIONS := by
    rw [init_tab, List.map_map]
    exact List.map_id' _
  obtain ⟨b1, b2, b3, b4, b5, b6, b7⟩ := checkFold_spec opts (out.map srcCard) _ hk
  have hnone : ∀ s ∈ out, instOf (srcCard s) = none := by
    intro s hs
    cases hx : instOf (srcCard s) with
    | none => rfl
    | some i => exact absurd ((instOf_iff s i).1 hx) (hi s hs i)
  have hz : (out.map srcCard).countP (fun c => (instOf c).isSome) = 0 := by
    rw [List.countP_eq_zero]
    intro c hc
    obtain ⟨s, hs, rfl⟩ := List.mem_map.1 hc
    rw [hnone s hs]
    decide
  have hmsgs : (out.map srcCard).flatMap (cardMsgs opts) = [] := by
    rw [List.flatMap_eq_nil_iff]
    intro c hc
    obtain ⟨s, hs, rfl⟩ := List.mem_map.1 hc
    simp [cardMsgs, badInst, hnone s hs]
  unfold checkRun
  rw [if_neg (by cases files <;> simp at hf ⊢), checkFilesRun_ok.2 h1]
  simp only
  rw [if_pos hc]
  generalize hst : (out.map srcCard).foldl (checkStep opts) CheckState.init = st at *
  rw [b2, b1, b7, hz, hmsgs]
  have hd : (if opts.sort then freqtab st.instrtab else byName st.instrtab) ≠ [] := by
    have hl : INSTRUCTIONS ≠ [] := by decide
    split
    · intro h0
      have := (freqtab_perm st.instrtab).length_eq
      rw [h0] at this
      apply hl
      rw [← b4]
      exact List.map_eq_nil_iff.2 (List.length_eq_zero_iff.1 this.symm)
    · intro h0
      have := byName_keys st.instrtab
      rw [h0, b4] at this
      have h2 := (pySortedStr_perm INSTRUCTIONS).length_eq
      rw [← this] at h2
      exact hl (List.length_eq_zero_iff.1 h2.symm)
  have hfl : freqLinesRun opts (CheckState.init.instrcount + 0)
      (if opts.sort then freqtab st.instrtab else byName st.instrtab) =
        ([], .error .zeroDivision) := by
    cases hx : (if opts.sort then freqtab st.instrtab else byName st.instrtab) with
    | nil => exact absurd hx hd
    | cons p d =>
      obtain ⟨i, k⟩ := p
      simp [freqLinesRun, hu, CheckState.init]
  rw [hfl]
  simp [CheckState.init]

/-- C137: list-instructions ends as `listInstructions` says, and if it ends normally its output is
that of `listInstructions`. -/
theorem C137_list_ends (fs : FileSystem) (fuel : Nat) (details : Bool) (args : List Str) :
    (∀ l, listRun fs fuel details args = (l, .ok ()) ↔
      listInstructions fs fuel details args = .ok l) ∧
    ∀ e, (∃ out, listRun fs fuel details args = (out, .error e)) ↔
      listInstructions fs fuel details args = .error e := by
  refine ⟨fun msgs => ⟨fun h => ?_, listRun_ok⟩, fun e => ⟨fun ⟨out, h⟩ => ?_, listRun_error⟩⟩
  · rcases py_cases (listInstructions fs fuel details args) with ⟨m, hm⟩ | ⟨e, he⟩
    · have := listRun_ok hm
      rw [h] at this
      cases this
      exact hm
    · obtain ⟨o, ho⟩ := listRun_error he
      rw [h] at ho
      cases ho
  · rcases py_cases (listInstructions fs fuel details args) with ⟨m, hm⟩ | ⟨e', he⟩
    · have := listRun_ok hm
      rw [h] at this
      cases this
    · obtain ⟨o, ho⟩ := listRun_error he
      rw [h] at ho
      cases ho
      exact he

/-- C137: a file that list-instructions cannot read alone stops it with the same exception wherever
it stands; by then it has printed exactly what it prints for the files before. -/
theorem C137_list_prefix (fs : FileSystem) (fuel : Nat) (details : Bool) (opcode : Str)
    (pre post : List Str) (f : Str) (e : PyErr) (l : List Str)
    (hf : listInstructions fs fuel details [opcode, f] = .error e)
    (hpre : listInstructions fs fuel details (opcode :: pre) = .ok l) :
    listRun fs fuel details (opcode :: pre ++ f :: post) = (l, .error e) := by
  simp only [listInstructions] at hf hpre
  simp only [List.cons_append, listRun]
  by_cases hc : ¬ (INSTRUCTIONS.contains
      (if opcode.contains ',' then splitFirst opcode ',' else opcode)) = true
  · rw [if_pos hc] at hpre; cases hpre
  · rw [if_neg hc] at hf hpre ⊢
    have hd : deckCards fs fuel f = .error e := by
      cases hd : deckCards fs fuel f with
      | error e' => rw [List.mapM_cons, hd] at hf; cases hf; rfl
      | ok cs => rw [List.mapM_cons, hd] at hf; cases hf
    cases hm : pre.mapM (deckCards fs fuel) with
    | error e' => rw [hm] at hpre; cases hpre
    | ok ds =>
      rw [hm] at hpre
      cases hpre
      rw [listFilesRun_ok hm]
      simp only [listFilesRun, hd, List.append_nil]

/-- C137 on three files, the second of which does not exist: the invalid instruction of the first is
reported, that of the third is not; list-instructions has listed the first file. -/
def failFs : FileSystem := fun f =>
  if f = py "A.arg" then some (py "                   QQ\n                   TN\n")
  else if f = py "C.arg" then some (py "                   ZZ\n                   TN\n")
  else none

example : (match checkRun failFs 5 ⟨false, true, false, false, false, false⟩
        [py "A.arg", py "B.arg", py "C.arg"] with
    | (l, r) => decide (r = .error .systemExit ∧ (invalids l).map (·.text) =
        [py "                   QQ"] ∧ l.length = 1)) = true ∧
    listRun failFs 5 false [py "TN", py "A.arg", py "B.arg", py "C.arg"] =
      ([py "                   TN"], .error .systemExit) ∧
    checkInstructions failFs 5 ⟨false, false, false, false, false, false⟩ [py "B.arg"] =
      .error .systemExit := ⟨by decide +kernel, by decide +kernel, by decide +kernel⟩

example : checkRun toolFs 5 ⟨false, true, false, false, false, false⟩ [py "E.arg"] =
    ([.lines 0, .total 0], .error .zeroDivision) := by decide +kernel

/-! ### parse -/

theorem parseSymbolsRun_ok {upper : Str → Str} {fs : FileSystem} {fuel : Nat} {files : List Str}
    {symtab : Symtab} {ec l i : Nat} {errs : List Nat} {ec' : Nat} {errs' : List Nat} :
    parseSymbolsRun upper fs fuel files symtab ec errs = (ec', errs', .ok ()) ↔
      ∃ t, parseSymbols upper fs fuel files ⟨ec, l, i, symtab, errs⟩ =
        .ok ⟨ec', l, i, t, errs'⟩ := by
  induction files generalizing symtab ec errs with
  | nil =>
    simp only [parseSymbolsRun, parseSymbols, List.foldlM_nil]
    constructor
    · intro h; cases h; exact ⟨symtab, rfl⟩
    · rintro ⟨t, h⟩; cases h; rfl
  | cons f files ih =>
    simp only [parseSymbolsRun]
    unfold parseSymbols at ih ⊢
    rw [List.foldlM_cons]
    cases hb : buildSymbolTable upper fs fuel f symtab with
    | error e =>
      constructor
      · intro h; cases h
      · rintro ⟨t, h⟩
        cases h
    | ok b => exact ih

theorem parseSymbolsRun_decks {upper : Str → Str} {fs : FileSystem} {fuel : Nat} {files : List Str}
    {symtab : Symtab} {ec : Nat} {errs : List Nat} {ec' : Nat} {errs' : List Nat}
    (h : parseSymbolsRun upper fs fuel files symtab ec errs = (ec', errs', .ok ())) :
    (∃ decks, files.mapM (deckCards fs fuel) = .ok decks) ∧
    ∃ errs1, errs' = errs ++ errs1 ∧ errs1.length = files.length ∧
      ∀ last, errs1.getLast? = some last → ec' = last := by
  induction files generalizing symtab ec errs with
  | nil =>
    cases h
    exact ⟨⟨[], rfl⟩, [], by simp, rfl, fun last h => by cases h⟩
  | cons f files ih =>
    simp only [parseSymbolsRun] at h
    cases hb : buildSymbolTable upper fs fuel f symtab with
    | error e => rw [hb] at h; cases h
    | ok b =>
      rw [hb] at h
      obtain ⟨⟨decks, h1⟩, errs1, h2, h3, h4⟩ := ih h
      refine ⟨?_, b.errcount :: errs1, by rw [h2]; simp, by simp [h3], ?_⟩
      · unfold buildSymbolTable at hb
        cases hd : deckCards fs fuel f with
        | error e => rw [hd] at hb; cases hb
        | ok cs => exact ⟨_, mapM_cons_ok.2 ⟨cs, decks, hd, h1, rfl⟩⟩
      · intro last hl
        cases errs1 with
        | nil =>
          have : files = [] := List.length_eq_zero_iff.1 h3.symm
          subst this
          cases h
          cases hl
          rfl
        | cons x xs => exact h4 last hl

theorem parseStepRun_spec (debug : Bool) (opts : CheckOpts) (ho : opts.printOpcodes = debug)
    (l e : Nat) (out : List CheckMsg) (c : CodeCard) :
    parseStepRun debug (l, e, out) c =
      (l + 1, e + (if badInst c then 1 else 0), out ++ cardMsgs opts c) := by
  subst ho
  unfold parseStepRun cardMsgs badInst
  simp only
  cases hi : c.instruction with
  | none => simp [instOf, hi]
  | some i =>
    cases i with
    | nil => simp [instOf, hi]
    | cons x xs =>
      have hio : instOf c = some (x :: xs) := by simp [instOf, hi]
      simp only [hio]
      by_cases hs : c.column8 = some (py "*")
      · have hst : star c = true := by simp [star, hs]
        simp only [hs, hst, if_true]
        cases opts.printOpcodes <;> simp
      · have hst : star c = false := by simp [star, hs]
        simp only [hs, hst, if_false]
        cases hn : INSTRUCTIONS.contains (x :: xs) <;> cases opts.printOpcodes <;> simp

theorem parseFoldRun_spec (debug : Bool) (opts : CheckOpts) (ho : opts.printOpcodes = debug)
    (cs : List CodeCard) (l e : Nat) (out : List CheckMsg) :
    cs.foldl (parseStepRun debug) (l, e, out) =
      (l + cs.length, e + cs.countP badInst, out ++ cs.flatMap (cardMsgs opts)) := by
  induction cs generalizing l e out with
  | nil => simp
  | cons c cs ih =>
    rw [List.foldl_cons, parseStepRun_spec debug opts ho, ih, List.countP_cons]
    simp only [List.length_cons, List.flatMap_cons, List.append_assoc, Prod.mk.injEq, and_true]
    omega

theorem parseDecksRun_ok {fs : FileSystem} {fuel : Nat} {debug : Bool} {files : List Str}
    {decks : List (List CodeCard)} (h : files.mapM (deckCards fs fuel) = .ok decks)
    (st : Nat × Nat × List CheckMsg) :
    parseDecksRun fs fuel debug files st =
      (decks.flatten.foldl (parseStepRun debug) st, .ok ()) := by
  induction files generalizing decks st with
  | nil => rw [mapM_nil_ok.1 h]; rfl
  | cons f files ih =>
    obtain ⟨cs, ds, h1, h2, rfl⟩ := mapM_cons_ok.1 h
    simp only [parseDecksRun]
    rw [h1]
    simp only
    rw [ih h2, List.flatten_cons, List.foldl_append]

theorem foldDecks_ok {σ : Type} {fs : FileSystem} {fuel : Nat} {files : List Str}
    {step : σ → CodeCard → σ} {decks : List (List CodeCard)}
    (h : files.mapM (deckCards fs fuel) = .ok decks) (st : σ) :
    files.foldlM (fun st f => do return (← deckCards fs fuel f).foldl step st) st =
      Except.ok (ε := PyErr) (decks.flatten.foldl step st) := by
  induction files generalizing decks st with
  | nil => rw [mapM_nil_ok.1 h]; rfl
  | cons f files ih =>
    obtain ⟨cs, ds, h1, h2, rfl⟩ := mapM_cons_ok.1 h
    rw [List.foldlM_cons, h1]
    refine (ih h2 _).trans ?_
    rw [List.flatten_cons, List.foldl_append]

/-- What a complete run of parse prints. -/
theorem parseRun_ok {upper : Str → Str} {fs : FileSystem} {fuel : Nat} {debug : Bool}
    {args : List Str} {ec : Nat} {errs : List Nat} (ha : ¬ args.length < 1)
    (h : parseSymbolsRun upper fs fuel args [] 0 [] = (ec, errs, .ok ()))
    {decks : List (List CodeCard)} (hd : args.mapM (deckCards fs fuel) = .ok decks)
    (opts : CheckOpts) (ho : opts.printOpcodes = debug) :
    parseRun upper fs fuel debug args =
      (⟨decks.flatten.flatMap (cardMsgs opts) ++
        [.lines decks.flatten.length, .errors (ec + decks.flatten.countP badInst)], errs⟩,
        .ok ()) := by
  unfold parseRun
  rw [if_neg ha, h]
  simp only
  rw [parseDecksRun_ok hd, parseFoldRun_spec debug opts ho]
  simp

/-- C137: if parse stops with an exception it has printed nothing on the standard output, and on the
standard error stream the numbers of errors of the files before the one that it stopped at. -/
theorem C137_parse (upper : Str → Str) (fs : FileSystem) (fuel : Nat) (debug : Bool)
    (args : List Str) (o : ParseOut) (e : PyErr)
    (h : parseRun upper fs fuel debug args = (o, .error e)) :
    o.out = [] ∧ (args = [] ∨ o.fileErrs.length < args.length) ∧
    ∀ k o', 0 < k → k ≤ o.fileErrs.length →
      parseRun upper fs fuel debug (args.take k) = (o', .ok ()) →
      o'.fileErrs = o.fileErrs.take k := by
  by_cases ha : args.length < 1
  · have : args = [] := List.length_eq_zero_iff.1 (by omega)
    subst this
    cases h
    refine ⟨rfl, Or.inl rfl, fun k o' hk hk' _ => ?_⟩
    simp at hk'
    omega
  · have hrun := h
    unfold parseRun at h
    rw [if_neg ha] at h
    rcases hp : parseSymbolsRun upper fs fuel args [] 0 [] with ⟨ec, errs, r⟩
    rw [hp] at h
    cases r with
    | ok u =>
      cases u
      obtain ⟨decks, hd⟩ := (parseSymbolsRun_decks hp).1
      rw [parseRun_ok ha hp hd ⟨false, false, false, debug, false, false⟩ rfl] at hrun
      cases hrun
    | error e' =>
      cases h
      -- the numbers printed, file by file
      have key : ∀ (files : List Str) (symtab : Symtab) (ec0 : Nat) (errs0 : List Nat) (ec : Nat)
          (errs : List Nat) (e : PyErr),
          parseSymbolsRun upper fs fuel files symtab ec0 errs0 = (ec, errs, .error e) →
          ∃ errs1, errs = errs0 ++ errs1 ∧ errs1.length < files.length ∧
            ∀ k, k ≤ errs1.length → ∃ ec', parseSymbolsRun upper fs fuel (files.take k) symtab ec0
              errs0 = (ec', errs0 ++ errs1.take k, .ok ()) := by
        intro files
        induction files with
        | nil => intro symtab ec0 errs0 ec errs e h; cases h
        | cons f files ih =>
          intro symtab ec0 errs0 ec errs e h
          simp only [parseSymbolsRun] at h
          cases hb : buildSymbolTable upper fs fuel f symtab with
          | error e' =>
            rw [hb] at h
            cases h
            refine ⟨[], by simp, by simp, fun k hk => ⟨ec0, ?_⟩⟩
            obtain rfl : k = 0 := by simpa using hk
            simp [parseSymbolsRun]
          | ok b =>
            rw [hb] at h
            obtain ⟨errs1, h1, h2, h3⟩ := ih _ _ _ _ _ _ h
            refine ⟨b.errcount :: errs1, by rw [h1]; simp, by simpa using h2, fun k hk => ?_⟩
            cases k with
            | zero => exact ⟨ec0, by simp [parseSymbolsRun]⟩
            | succ k =>
              obtain ⟨ec', h4⟩ := h3 k (by simpa using hk)
              refine ⟨ec', ?_⟩
              rw [List.take_succ_cons]
              simp only [parseSymbolsRun]
              rw [hb]
              simp only
              rw [h4]
              simp
      obtain ⟨errs1, h1, h2, h3⟩ := key _ _ _ _ _ _ _ hp
      simp only [List.nil_append] at h1
      subst h1
      refine ⟨rfl, Or.inr h2, fun k o' hk hk' ho => ?_⟩
      obtain ⟨ec', h4⟩ := h3 k hk'
      have hat : ¬ (args.take k).length < 1 := by
        rw [List.length_take]
        omega
      obtain ⟨decks, hd⟩ := (parseSymbolsRun_decks h4).1
      rw [parseRun_ok hat h4 hd ⟨false, false, false, debug, false, false⟩ rfl] at ho
      cases ho
      rfl

/-- C138: parse ends normally exactly if `parseMain` does, and then prints its numbers last. -/
theorem C138_ends (upper : Str → Str) (fs : FileSystem) (fuel : Nat) (debug : Bool)
    (args : List Str) :
    (∀ st, parseMain upper fs fuel args = .ok st → ∃ out, parseRun upper fs fuel debug args =
      (⟨out ++ [.lines st.linecount, .errors st.errcount], st.fileErrs⟩, .ok ())) ∧
    ∀ o, parseRun upper fs fuel debug args = (o, .ok ()) →
      ∃ st, parseMain upper fs fuel args = .ok st := by
  unfold parseMain
  by_cases ha : args.length < 1
  · rw [if_pos ha]
    refine ⟨fun st h => (by cases h), fun o h => ?_⟩
    unfold parseRun at h
    rw [if_pos ha] at h
    cases h
  · rw [if_neg ha]
    rcases hp : parseSymbolsRun upper fs fuel args [] 0 [] with ⟨ec, errs, r⟩
    cases r with
    | error e =>
      constructor
      · intro st h
        exfalso
        cases hs : parseSymbols upper fs fuel args ⟨0, 0, 0, [], []⟩ with
        | error e => rw [hs] at h; cases h
        | ok st1 =>
          obtain ⟨a, b, c, d, f⟩ := st1
          have hbc : b = 0 ∧ c = 0 := by
            have key : ∀ (files : List Str) (s s' : ParseState),
                parseSymbols upper fs fuel files s = .ok s' → s'.linecount = s.linecount ∧
                  s'.instrcount = s.instrcount := by
              intro files
              induction files with
              | nil => intro s s' h; cases h; exact ⟨rfl, rfl⟩
              | cons g files ih =>
                intro s s' h
                unfold parseSymbols at h ih
                rw [List.foldlM_cons] at h
                cases hb : buildSymbolTable upper fs fuel g s.symtab with
                | error e => rw [hb] at h; cases h
                | ok b =>
                  rw [hb] at h
                  exact ih { s with
                    symtab := b.symtab
                    errcount := b.errcount
                    fileErrs := s.fileErrs ++ [b.errcount] } s' h
            exact key _ _ _ hs
          obtain ⟨rfl, rfl⟩ := hbc
          rw [parseSymbolsRun_ok.2 ⟨d, hs⟩] at hp
          cases hp
      · intro o h
        unfold parseRun at h
        rw [if_neg ha, hp] at h
        cases h
    | ok u =>
      cases u
      obtain ⟨⟨decks, hd⟩, -⟩ := parseSymbolsRun_decks hp
      obtain ⟨t, hs⟩ := (parseSymbolsRun_ok (l := 0) (i := 0)).1 hp
      have hpd : parseDecks fs fuel args ⟨ec, 0, 0, t, errs⟩ =
          .ok (decks.flatten.foldl parseStep ⟨ec, 0, 0, t, errs⟩) := foldDecks_ok hd _
      obtain ⟨k1, -, k3, -, k5⟩ := parseFold_spec decks.flatten ⟨ec, 0, 0, t, errs⟩
      rw [hs, py_bind_ok, hpd]
      refine ⟨fun st h => ?_, fun o _ => ⟨_, rfl⟩⟩
      cases h
      refine ⟨decks.flatten.flatMap (cardMsgs ⟨false, false, false, debug, false, false⟩), ?_⟩
      rw [parseRun_ok ha hp hd ⟨false, false, false, debug, false, false⟩ rfl, k1, k3, k5,
        Nat.zero_add]

/-- C138: parse prints about the cards what check-instructions prints (with `--debug`, what it prints
with `--print-opcodes`), the same number of lines, and as number of errors that of check-instructions
and the symbol table errors of the last file. -/
theorem C138_same (upper : Str → Str) (fs : FileSystem) (fuel : Nat) (debug : Bool)
    (args : List Str) (o : ParseOut) (h : parseRun upper fs fuel debug args = (o, .ok ()))
    (all invalid sort : Bool) :
    ∃ out n rest k last,
      checkInstructions fs fuel ⟨all, true, invalid, debug, sort, true⟩ args =
        .ok (out ++ .lines n :: rest ++ [.errors k]) ∧
      o.fileErrs.length = args.length ∧ o.fileErrs.getLast? = some last ∧
      o.out = out ++ [.lines n, .errors (k + last)] := by
  have ha : ¬ args.length < 1 := by
    intro ha
    unfold parseRun at h
    rw [if_pos ha] at h
    cases h
  rcases hp : parseSymbolsRun upper fs fuel args [] 0 [] with ⟨ec, errs, r⟩
  cases r with
  | error e =>
    unfold parseRun at h
    rw [if_neg ha, hp] at h
    cases h
  | ok u =>
    cases u
    obtain ⟨⟨decks, hd⟩, errs1, h1, h2, h3⟩ := parseSymbolsRun_decks hp
    simp only [List.nil_append] at h1
    subst h1
    set opts : CheckOpts := ⟨all, true, invalid, debug, sort, true⟩ with hopts
    rw [parseRun_ok ha hp hd opts rfl] at h
    cases h
    have hk : CheckState.init.instrtab.map (·.1) = INSTRUCTIONS := by
      rw [init_tab, List.map_map]
      exact List.map_id' _
    have hck : checkFiles fs fuel opts args CheckState.init =
        .ok (decks.flatten.foldl (checkStep opts) CheckState.init) := foldDecks_ok hd _
    obtain ⟨b1, b2, b3, b4, b5, b6, b7⟩ := checkFold_spec opts decks.flatten CheckState.init hk
    generalize decks.flatten.foldl (checkStep opts) CheckState.init = st at *
    have e2 : CheckState.init.instrcount = 0 := rfl
    have hsum0 : (CheckState.init.instrtab.map (·.2)).sum = 0 := by
      rw [init_tab, List.map_map]; simp [Function.comp_def]
    have hnd : (st.instrtab.map (·.1)).Nodup := b4 ▸ instructions_nodup
    have hperm : (if opts.sort = true then freqtab st.instrtab else byName st.instrtab).Perm
        st.instrtab := by
      split
      · exact freqtab_perm _
      · exact byName_perm hnd
    cases hl : errs.getLast? with
    | none =>
      rw [List.getLast?_eq_none_iff] at hl
      rw [hl] at h2
      simp at h2
      omega
    | some last =>
      have hec := h3 last hl
      subst hec
      have hfl := freqLines_ok opts st.instrcount
        (if opts.sort = true then freqtab st.instrtab else byName st.instrtab) (by
          by_cases h0 : st.instrcount = 0
          · right
            intro p hpm
            refine ⟨rfl, ?_⟩
            have hs : (st.instrtab.map (·.2)).sum = 0 := by rw [b2, e2] at h0; omega
            exact List.sum_eq_zero_iff.1 hs p.2 (List.mem_map.2 ⟨p, hperm.mem_iff.1 hpm, rfl⟩)
          · exact Or.inl h0)
      refine ⟨decks.flatten.flatMap (cardMsgs opts), decks.flatten.length,
        .total st.instrcount :: (((if opts.sort = true then freqtab st.instrtab
          else byName st.instrtab).filter fun p => !opts.unused || decide (p.2 ≠ 0)).map
            (fun p => .freq p.1 p.2 st.instrcount)) ++
          .unusedHeader :: ((byName st.instrtab).filter fun p => p.2 = 0).map (fun p => .unused p.1),
        decks.flatten.countP badInst, ec, ?_, h2, rfl, ?_⟩
      · unfold checkInstructions checkReport
        rw [if_neg ha, hck]
        simp only [py_bind_ok]
        rw [if_pos rfl, hfl]
        simp only [py_bind_ok, py_pure]
        rw [b1, b3, b7, if_pos (show opts.unused = true from rfl)]
        simp [CheckState.init]
      · rw [Nat.add_comm]

/-- C138 on two files: the invalid instruction is printed by both; the error of the first file's
symbol table is not in the total. -/
def parseFs : FileSystem := fun f =>
  if f = py "A.arg" then some (py "        b          QQ\n")
  else if f = py "B.arg" then some (py "        D          TN\n")
  else none

example : (match parseRun asciiUpper parseFs 10 false [py "A.arg", py "B.arg"],
      checkInstructions parseFs 10 ⟨false, false, false, false, false, false⟩
        [py "A.arg", py "B.arg"] with
    | (o, r), .ok msgs => decide (r = .ok () ∧ o.fileErrs = [1, 0] ∧
        (invalids o.out).map (·.text) = [py "        b          QQ"] ∧
        o.out.drop 1 = [.lines 2, .errors 1] ∧ msgs = o.out.take 1 ++ [.errors 1])
    | _, .error _ => false) = true := by decide +kernel

/-- C137 for parse: with a missing second file nothing but the errors of the first is printed. -/
example : parseRun asciiUpper parseFs 10 false [py "A.arg", py "C.arg"] =
    (⟨[], [1]⟩, .error .systemExit) := by decide +kernel

end H800
