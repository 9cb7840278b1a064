import Verif.Props.Tools

/-!
Property C107: what check-instructions and list-instructions print does not depend on the order of
the files, but for the order of the messages about single lines.
-/

namespace H800

open Spec

/-- The cards of a file that can be read. -/
def cardsOf (fs : FileSystem) (fuel : Nat) (f : Str) : List CodeCard :=
  match deckCards fs fuel f with
  | .ok cs => cs
  | .error _ => []

theorem foldFiles_cards {σ : Type} {fs : FileSystem} {fuel : Nat} {step : σ → CodeCard → σ}
    {files : List Str} {st st' : σ} :
    files.foldlM (fun st f => do return (← deckCards fs fuel f).foldl step st) st =
        Except.ok (ε := PyErr) st' ↔
      (∀ f ∈ files, ∃ cs, deckCards fs fuel f = .ok cs) ∧
        st' = (files.flatMap (cardsOf fs fuel)).foldl step st := by
  induction files generalizing st with
  | nil => exact ⟨fun h => ⟨by simp, by cases h; rfl⟩, fun h => by rw [h.2]; rfl⟩
  | cons f files ih =>
    rw [List.foldlM_cons, List.flatMap_cons, List.foldl_append]
    cases hd : deckCards fs fuel f with
    | error e =>
      constructor
      · intro h; cases h
      · rintro ⟨h, -⟩
        obtain ⟨cs, h⟩ := h f List.mem_cons_self
        rw [hd] at h; cases h
    | ok cs =>
      have hc : cardsOf fs fuel f = cs := by unfold cardsOf; rw [hd]
      rw [hc]
      refine (ih (st := cs.foldl step st)).trans (and_congr ?_ Iff.rfl)
      constructor
      · intro h g hg
        rcases List.mem_cons.1 hg with rfl | hg
        · exact ⟨cs, hd⟩
        · exact h g hg
      · exact fun h g hg => h g (List.mem_cons_of_mem _ hg)

/-- Two instruction tables with the same keys and counts are the same. -/
theorem dict_ext_keys {d d' : Dict Str Nat} (h : d.map (·.1) = d'.map (·.1))
    (hn : (d.map (·.1)).Nodup) (hg : ∀ m, dget d m = dget d' m) : d = d' := by
  induction d generalizing d' with
  | nil =>
    cases d' with
    | nil => rfl
    | cons q d' => cases h
  | cons p d ih =>
    cases d' with
    | nil => cases h
    | cons q d' =>
      simp only [List.map_cons, List.cons.injEq] at h
      rw [List.map_cons, List.nodup_cons] at hn
      obtain ⟨k, v⟩ := p
      obtain ⟨k', v'⟩ := q
      obtain rfl : k = k' := h.1
      have hv := hg k
      simp only [dget, if_true] at hv
      obtain rfl : v = v' := by simpa using hv
      congr 1
      refine ih h.2 hn.2 fun m => ?_
      by_cases hm : m = k
      · subst hm
        have h1 : dget d m = none := dget_none.2 hn.1
        have h2 : dget d' m = none := dget_none.2 (h.2 ▸ hn.1)
        rw [h1, h2]
      · have := hg m
        simpa [dget, hm, Ne.symm hm] using this

/-- C107: for the same files in another order check-instructions prints the same messages: those
about single lines in another order, and after them the same report. -/
theorem C107_check (fs : FileSystem) (fuel : Nat) (opts : CheckOpts) (files files' : List Str)
    (msgs : List CheckMsg) (hf : files.Perm files')
    (h : checkInstructions fs fuel opts files = .ok msgs) :
    ∃ lines lines' report, msgs = lines ++ report ∧
      checkInstructions fs fuel opts files' = .ok (lines' ++ report) ∧ lines.Perm lines' ∧
      freqs lines = [] ∧ unuseds lines = [] ∧ invalids report = [] := by
  unfold checkInstructions at h ⊢
  rw [← hf.length_eq]
  split at h
  · cases h
  · rename_i hlen
    rw [if_neg hlen]
    cases hck : checkFiles fs fuel opts files CheckState.init with
    | error e => rw [hck] at h; cases h
    | ok st =>
      rw [hck, py_bind_ok] at h
      unfold checkFiles at hck
      obtain ⟨hall, hst⟩ := foldFiles_cards.1 hck
      have hck' : checkFiles fs fuel opts files' CheckState.init =
          .ok ((files'.flatMap (cardsOf fs fuel)).foldl (checkStep opts) CheckState.init) :=
        foldFiles_cards.2 ⟨fun f hm => hall f (hf.mem_iff.2 hm), rfl⟩
      have hk : CheckState.init.instrtab.map (·.1) = INSTRUCTIONS := by
        rw [init_tab, List.map_map]; simp [Function.comp_def]
      have hperm : (files.flatMap (cardsOf fs fuel)).Perm (files'.flatMap (cardsOf fs fuel)) :=
        hf.flatMap_right _
      obtain ⟨a1, a2, a3, a4, a5, -, a7⟩ :=
        checkFold_spec opts (files.flatMap (cardsOf fs fuel)) CheckState.init hk
      obtain ⟨b1, b2, b3, b4, b5, -, b7⟩ :=
        checkFold_spec opts (files'.flatMap (cardsOf fs fuel)) CheckState.init hk
      rw [← hst] at a1 a2 a3 a4 a5 a7
      generalize hst' : (files'.flatMap (cardsOf fs fuel)).foldl (checkStep opts)
        CheckState.init = st' at *
      have c1 : st.linecount = st'.linecount := by rw [a1, b1, hperm.length_eq]
      have c2 : st.instrcount = st'.instrcount := by rw [a2, b2, hperm.countP_eq]
      have c3 : st.errcount = st'.errcount := by rw [a3, b3, hperm.countP_eq]
      have c4 : st.instrtab = st'.instrtab := by
        refine dict_ext_keys (a4.trans b4.symm) (a4 ▸ instructions_nodup) fun m => ?_
        rw [a5, b5, hperm.countP_eq]
      have e0 : CheckState.init.out = [] := rfl
      rw [e0, List.nil_append] at a7 b7
      have hout : st.out.Perm st'.out := by
        rw [a7, b7]; exact hperm.flatMap_right _
      obtain ⟨f1, f2, -⟩ := cardMsgs_sets opts (files.flatMap (cardsOf fs fuel))
      rw [← a7] at f1 f2
      rw [hck', py_bind_ok]
      have hinv : ∀ l : List (Str × Nat), invalids (l.map fun p => CheckMsg.unused p.1) = [] :=
        fun l => (map_unused l).2.2
      have hinvu : invalids (if opts.unused then
          CheckMsg.unusedHeader :: ((byName st.instrtab).filter fun p => p.2 = 0).map
            fun p => .unused p.1 else []) = [] := by
        split
        · exact hinv _
        · rfl
      unfold checkReport at h ⊢
      rw [← c1, ← c2, ← c3, ← c4]
      by_cases hc : opts.count = true
      · simp only [hc, if_true] at h ⊢
        cases hl : freqLines opts st.instrcount
            (if opts.sort = true then freqtab st.instrtab else byName st.instrtab) with
        | error e => rw [hl] at h; cases h
        | ok fl =>
          rw [hl] at h
          cases h
          have hfl : invalids fl = [] := by
            clear hinvu f1 f2 a5 b5 a7 b7
            generalize (if opts.sort = true then freqtab st.instrtab else byName st.instrtab) = d at hl
            induction d generalizing fl with
            | nil => cases hl; rfl
            | cons p d ih =>
              obtain ⟨i, n⟩ := p
              rw [freqLines] at hl
              split at hl
              · split at hl
                · cases hl
                · cases hr : freqLines opts st.instrcount d with
                  | error e => rw [hr] at hl; cases hl
                  | ok r => rw [hr] at hl; cases hl; exact ih r hr
              · exact ih fl hl
          refine ⟨st.out, st'.out, (.lines st.linecount :: .total st.instrcount :: fl) ++
            (if opts.unused then
              CheckMsg.unusedHeader :: ((byName st.instrtab).filter fun p => p.2 = 0).map
                fun p => .unused p.1 else []) ++ [.errors st.errcount], ?_, ?_, hout, f1, f2, ?_⟩
          · simp only [List.append_assoc]
          · simp only [py_bind_ok, py_pure, List.append_assoc]
          · rw [invalids_append, invalids_append]
            simp only [invalids, hfl, hinvu, List.append_nil]
      · have hc' : opts.count = false := by simpa using hc
        simp only [hc'] at h ⊢
        cases h
        refine ⟨st.out, st'.out, (if opts.unused then
            CheckMsg.unusedHeader :: ((byName st.instrtab).filter fun p => p.2 = 0).map
              fun p => .unused p.1 else []) ++ [.errors st.errcount], ?_, ?_, hout, f1, f2, ?_⟩
        · simp
        · simp [py_pure]
        · rw [invalids_append]
          simp only [invalids, hinvu, List.append_nil]

theorem mapFiles_cards {fs : FileSystem} {fuel : Nat} {files : List Str}
    {decks : List (List CodeCard)} :
    files.mapM (deckCards fs fuel) = .ok decks ↔
      (∀ f ∈ files, ∃ cs, deckCards fs fuel f = .ok cs) ∧ decks = files.map (cardsOf fs fuel) := by
  induction files generalizing decks with
  | nil => rw [mapM_nil_ok]; simp
  | cons f files ih =>
    rw [mapM_cons_ok]
    constructor
    · rintro ⟨cs, ds, h1, h2, rfl⟩
      obtain ⟨h3, rfl⟩ := ih.1 h2
      have hc : cardsOf fs fuel f = cs := by unfold cardsOf; rw [h1]
      refine ⟨fun g hg => ?_, by rw [List.map_cons, hc]⟩
      rcases List.mem_cons.1 hg with rfl | hg
      · exact ⟨cs, h1⟩
      · exact h3 g hg
    · rintro ⟨h, rfl⟩
      obtain ⟨cs, h1⟩ := h f List.mem_cons_self
      have hc : cardsOf fs fuel f = cs := by unfold cardsOf; rw [h1]
      exact ⟨cs, _, h1, ih.2 ⟨fun g hg => h g (List.mem_cons_of_mem _ hg), rfl⟩,
        by rw [List.map_cons, hc]⟩

/-- C107: list-instructions prints for several files what it prints for the first ones followed by
what it prints for the others. -/
theorem C107_list_append (fs : FileSystem) (fuel : Nat) (details : Bool) (opcode : Str)
    (a b : List Str) (l : List Str) :
    listInstructions fs fuel details (opcode :: (a ++ b)) = .ok l ↔
      ∃ x y, listInstructions fs fuel details (opcode :: a) = .ok x ∧
        listInstructions fs fuel details (opcode :: b) = .ok y ∧ l = x ++ y := by
  unfold listInstructions
  simp only
  generalize INSTRUCTIONS.contains (if opcode.contains ',' then splitFirst opcode ',' else opcode) = c
  cases c
  · simp
  · simp only [not_true, if_false]
    have key : ∀ (files : List Str) (l : List Str),
        ((do
          let decks ← files.mapM (deckCards fs fuel)
          return decks.flatMap fun cards => (cards.filter (listed opcode)).map (listLine details)) =
            Except.ok (ε := PyErr) l) ↔
        (∀ f ∈ files, ∃ cs, deckCards fs fuel f = .ok cs) ∧
          l = files.flatMap fun f =>
            ((cardsOf fs fuel f).filter (listed opcode)).map (listLine details) := by
      intro files l
      constructor
      · intro h
        cases hm : files.mapM (deckCards fs fuel) with
        | error e => rw [hm] at h; cases h
        | ok decks =>
          rw [hm] at h
          obtain ⟨h1, rfl⟩ := mapFiles_cards.1 hm
          cases h
          exact ⟨h1, by rw [List.flatMap_map]⟩
      · rintro ⟨h1, rfl⟩
        rw [mapFiles_cards.2 ⟨h1, rfl⟩, py_bind_ok, List.flatMap_map]
        rfl
    rw [key]
    constructor
    · rintro ⟨h1, rfl⟩
      refine ⟨_, _, (key a _).2 ⟨fun f hf => h1 f (List.mem_append_left _ hf), rfl⟩,
        (key b _).2 ⟨fun f hf => h1 f (List.mem_append_right _ hf), rfl⟩, ?_⟩
      rw [List.flatMap_append]
    · rintro ⟨x, y, hx, hy, rfl⟩
      obtain ⟨h1, rfl⟩ := (key a x).1 hx
      obtain ⟨h2, rfl⟩ := (key b y).1 hy
      refine ⟨fun f hf => ?_, by rw [List.flatMap_append]⟩
      rcases List.mem_append.1 hf with hf | hf
      · exact h1 f hf
      · exact h2 f hf

/-- Two files with an unknown instruction each. -/
def twoBadFs : FileSystem := fun f =>
  if f = py "A.arg" then some (py "                   QA\n                   TN\n")
  else if f = py "B.arg" then some (py "                   QB\n")
  else none

/-- In the other order the two messages change places; the report is the same. -/
example : (match checkInstructions twoBadFs 10 ⟨false, true, true, false, false, true⟩
      [py "A.arg", py "B.arg"], checkInstructions twoBadFs 10
      ⟨false, true, true, false, false, true⟩ [py "B.arg", py "A.arg"] with
    | .ok a, .ok b =>
      decide ((invalids a).map (·.text) = [py "                   QA", py "                   QB"]) &&
      decide ((invalids b).map (·.text) = [py "                   QB", py "                   QA"]) &&
      decide (freqs a = [(py "TN", 1, 3)]) && decide (freqs b = [(py "TN", 1, 3)]) &&
      decide (unuseds a = unuseds b)
    | _, _ => false) = true := by
  decide +kernel

end H800
