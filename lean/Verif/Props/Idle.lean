import Verif.Lemmas.Idle
import Verif.Lemmas.Reread
import Verif.Props.GenPages

/-!
Properties C132 and C133: lines without code at the end of files change no report.
-/

namespace H800

open Spec

theorem buildAll_same {fs fs' : FileSystem} (h : SameCode fs fs') (upper : Str → Str) (fuel : Nat)
    (files : List Str) : buildAll upper fs' fuel files = buildAll upper fs fuel files := by
  have one : ∀ f t, buildSymbolTable upper fs' fuel f t = buildSymbolTable upper fs fuel f t := by
    intro f t
    unfold buildSymbolTable
    rcases deckCards_same h fuel f with ⟨a, b, h1, h2, hab⟩ | ⟨e, h1, h2⟩
    · rw [h1, h2, py_bind_ok, py_bind_ok, build_skip, build_skip (cs := a), hab]
    · rw [h1, h2]
  unfold buildAll
  simp only [one]

/-- C132: lines without code (comments, blank lines, page, remark and log cards) added at the end of any
files change nothing in the reports of the tools, whatever files they are given and wherever the
changed files are included, except the number of lines reported by check-instructions and parse; if a
tool fails, it fails with the same error. -/
theorem C132_reports (fs fs' : FileSystem) (h : SameCode fs fs') (fuel : Nat) (upper : Str → Str)
    (extract : Str → List Str → Nat → List Str) (args : List Str) :
    (∀ details, listInstructions fs' fuel details args = listInstructions fs fuel details args) ∧
    listSymbols upper fs' fuel args = listSymbols upper fs fuel args ∧
    (∀ complex, checkSymbols upper extract fs' fuel complex args =
      checkSymbols upper extract fs fuel complex args) ∧
    (∀ b e f x, findSymbols upper extract fs' fuel b e f x args =
      findSymbols upper extract fs fuel b e f x args) ∧
    (∀ opts, (checkInstructions fs' fuel opts args).map (List.filter notLines) =
      (checkInstructions fs fuel opts args).map (List.filter notLines)) ∧
    (parseMain upper fs' fuel args).map (fun st => { st with linecount := 0 }) =
      (parseMain upper fs fuel args).map (fun st => { st with linecount := 0 }) := by
  have hb := buildAll_same h upper fuel
  refine ⟨fun details => ?_, ?_, fun complex => ?_, fun b e f x => ?_, fun opts => ?_, ?_⟩
  · cases args with
    | nil => rfl
    | cons opcode files =>
      unfold listInstructions
      simp only
      have : ∀ files : List Str, (do
          let decks ← files.mapM (deckCards fs' fuel)
          return decks.flatMap fun cards =>
            (cards.filter (listed opcode)).map (listLine details) : Py (List Str)) = (do
          let decks ← files.mapM (deckCards fs fuel)
          return decks.flatMap fun cards =>
            (cards.filter (listed opcode)).map (listLine details)) := by
        intro files
        induction files with
        | nil => rfl
        | cons f files ih =>
          rw [List.mapM_cons, List.mapM_cons]
          rcases deckCards_same h fuel f with ⟨a, b, h1, h2, hab⟩ | ⟨e, h1, h2⟩
          · rw [h1, h2, py_bind_ok, py_bind_ok]
            cases h3 : files.mapM (deckCards fs' fuel) with
            | error e =>
              rw [h3] at ih
              cases h4 : files.mapM (deckCards fs fuel) with
              | error e' => rw [h4] at ih; exact ih
              | ok d => rw [h4] at ih; cases ih
            | ok d =>
              rw [h3] at ih
              cases h4 : files.mapM (deckCards fs fuel) with
              | error e' => rw [h4] at ih; cases ih
              | ok d' =>
                rw [h4] at ih
                simp only [py_bind_ok, py_pure, Except.ok.injEq] at ih ⊢
                rw [List.flatMap_cons, List.flatMap_cons, ih, listed_skip, ← hab, ← listed_skip]
          · rw [h1, h2]; rfl
      rw [this]
  · unfold listSymbols
    rw [hb]
  · unfold checkSymbols
    rw [hb]
  · unfold findSymbols
    split
    · rfl
    · cases args with
      | nil => rfl
      | cons s files =>
        cases files with
        | nil => rfl
        | cons f files => simp only; rw [hb]
  · have files : ∀ (files : List Str) (st st' : CheckState), noCount st = noCount st' →
        (∃ a b, checkFiles fs fuel opts files st = .ok a ∧ checkFiles fs' fuel opts files st' = .ok b ∧
          noCount a = noCount b) ∨
        ∃ e, checkFiles fs fuel opts files st = .error e ∧
          checkFiles fs' fuel opts files st' = .error e := by
      intro files
      induction files with
      | nil => exact fun st st' h => Or.inl ⟨st, st', rfl, rfl, h⟩
      | cons f files ih =>
        intro st st' hst
        unfold checkFiles
        rw [List.foldlM_cons, List.foldlM_cons]
        rcases deckCards_same h fuel f with ⟨a, b, h1, h2, hab⟩ | ⟨e, h1, h2⟩
        · rw [h1, h2]
          exact ih _ _ (check_skip opts hst hab)
        · rw [h1, h2]
          exact Or.inr ⟨e, rfl, rfl⟩
    unfold checkInstructions
    split
    · rfl
    · rcases files args _ _ rfl with ⟨a, b, h1, h2, hab⟩ | ⟨e, h1, h2⟩
      · rw [h1, h2, py_bind_ok, py_bind_ok]
        obtain ⟨a1, a2, a3, a4, a5⟩ := a
        obtain ⟨b1, b2, b3, b4, b5⟩ := b
        simp only [noCount, CheckState.mk.injEq, true_and] at hab
        obtain ⟨rfl, rfl, rfl, rfl⟩ := hab
        unfold checkReport
        simp only
        by_cases hc : opts.count = true
        · rw [if_pos hc, if_pos hc]
          cases freqLines opts a3 (if opts.sort then freqtab a4 else byName a4) with
          | error e => rfl
          | ok l =>
            simp only [py_bind_ok, py_pure, Except.map]
            simp [List.filter_append, notLines]
        · rw [if_neg hc, if_neg hc]
      · rw [h1, h2]
  · have syms : ∀ (files : List Str) (st : ParseState),
        parseSymbols upper fs' fuel files st = parseSymbols upper fs fuel files st := by
      intro files st
      unfold parseSymbols
      have one : ∀ f t, buildSymbolTable upper fs' fuel f t = buildSymbolTable upper fs fuel f t := by
        intro f t
        unfold buildSymbolTable
        rcases deckCards_same h fuel f with ⟨a, b, h1, h2, hab⟩ | ⟨e, h1, h2⟩
        · rw [h1, h2, py_bind_ok, py_bind_ok, build_skip, build_skip (cs := a), hab]
        · rw [h1, h2]
      simp only [one]
    have files : ∀ (files : List Str) (st st' : ParseState), noLines st = noLines st' →
        (∃ a b, parseDecks fs fuel files st = .ok a ∧ parseDecks fs' fuel files st' = .ok b ∧
          noLines a = noLines b) ∨
        ∃ e, parseDecks fs fuel files st = .error e ∧ parseDecks fs' fuel files st' = .error e := by
      intro files
      induction files with
      | nil => exact fun st st' h => Or.inl ⟨st, st', rfl, rfl, h⟩
      | cons f files ih =>
        intro st st' hst
        unfold parseDecks
        rw [List.foldlM_cons, List.foldlM_cons]
        rcases deckCards_same h fuel f with ⟨a, b, h1, h2, hab⟩ | ⟨e, h1, h2⟩
        · rw [h1, h2]
          exact ih _ _ (parse_skip hst hab)
        · rw [h1, h2]
          exact Or.inr ⟨e, rfl, rfl⟩
    unfold parseMain
    split
    · rfl
    · rw [syms]
      cases parseSymbols upper fs fuel args ⟨0, 0, 0, [], []⟩ with
      | error e => rfl
      | ok st =>
        rw [py_bind_ok, py_bind_ok]
        rcases files args st st rfl with ⟨a, b, h1, h2, hab⟩ | ⟨e, h1, h2⟩
        · rw [h1, h2]
          exact congrArg Except.ok hab.symm
        · rw [h1, h2]

/-! ### What genpages appends -/

theorem extends_same (ls added : List Str) (h : ∀ l ∈ added, NoCode l) :
    Extends ls (ls ++ added) := by
  induction ls with
  | nil => exact .more added h
  | cons l ls ih => exact .line l ih

theorem blank_newline : Blank ['\n'] := by
  intro c hc
  rw [List.mem_singleton.1 hc]
  decide

theorem readlines_tail (text rest : Str) (h : ∀ l ∈ readlines rest, NoCode l) :
    Extends (readlines text) (readlines (text ++ '\n' :: rest)) := by
  induction text with
  | nil =>
    refine .more _ ?_
    rw [List.nil_append, readlines, if_pos rfl]
    intro l hl
    rcases List.mem_cons.1 hl with rfl | hl
    · exact Or.inr (Or.inr blank_newline)
    · exact h l hl
  | cons c s ih =>
    rw [List.cons_append, readlines, readlines]
    by_cases hc : c = '\n'
    · rw [if_pos hc, if_pos hc]
      exact .line _ ih
    · rw [if_neg hc, if_neg hc]
      cases s with
      | nil =>
        rw [List.nil_append]
        simp only [readlines, if_pos]
        exact .last [c] _ (by simpa using fun e => hc e.symm) h
      | cons d s =>
        have hne : readlines (d :: s) ≠ [] := by
          rw [readlines]
          split
          · simp
          · split <;> simp
        cases h1 : readlines (d :: s) with
        | nil => exact absurd h1 hne
        | cons m ms =>
          rw [h1] at ih
          cases h2 : readlines (d :: s ++ '\n' :: rest) with
          | nil => rw [h2] at ih; cases ih
          | cons m' ms' =>
            rw [h2] at ih
            cases ih with
            | line _ hx => exact .line _ hx
            | last _ _ hl ha =>
              refine .last (c :: m) _ ?_ ha
              simp only [List.mem_cons, not_or]
              exact ⟨fun e => hc e.symm, hl⟩

theorem readlines_lines {ls : List Str} (h : ∀ l ∈ ls, ∃ t, l = t ++ ['\n'] ∧ '\n' ∉ t) :
    readlines ls.flatten = ls := by
  induction ls with
  | nil => rfl
  | cons l ls ih =>
    obtain ⟨t, rfl, ht⟩ := h l List.mem_cons_self
    rw [List.flatten_cons, List.append_assoc, List.singleton_append, readlines_append ht,
      ih fun x hx => h x (List.mem_cons_of_mem _ hx)]

theorem numeral_newline (n : Nat) : '\n' ∉ numeral 10 n := by
  intro h
  have := (numeral_decimal n).2.1 _ h
  exact absurd this (by decide)

theorem pyStr_newline (n : Int) : '\n' ∉ pyStr n := by
  unfold pyStr
  split
  · simp only [List.mem_cons, not_or]
    exact ⟨by decide, numeral_newline _⟩
  · exact numeral_newline _

theorem strip_mem {s : Str} {c : Char} (h : c ∈ strip s) : c ∈ s := by
  obtain ⟨-, a, b, -, -, e⟩ := strip_stripped s
  rw [e]
  exact List.mem_append_left _ (List.mem_append_right _ h)

theorem wordsAux_mem (u s : Str) (hu : ∀ c ∈ u, isSpace c = false) :
    ∀ w ∈ wordsAux u s, ∀ c ∈ w, isSpace c = false := by
  induction s generalizing u with
  | nil =>
    rw [wordsAux]
    split
    · simp
    · intro w hw c hc
      rw [List.mem_singleton.1 hw] at hc
      exact hu c (List.mem_reverse.1 hc)
  | cons x s ih =>
    rw [wordsAux]
    split
    · split
      · exact ih [] (by simp)
      · intro w hw c hc
        rcases List.mem_cons.1 hw with rfl | hw
        · exact hu c (List.mem_reverse.1 hc)
        · exact ih [] (by simp) w hw c hc
    · rename_i hx
      refine ih (x :: u) fun c hc => ?_
      rcases List.mem_cons.1 hc with rfl | hc
      · simpa using hx
      · exact hu c hc

theorem sectionOf_newline {line s : Str} (h : sectionOf line = .ok s) : '\n' ∉ s := by
  unfold sectionOf at h
  cases hg : getE (pyWords line) 2 with
  | error e => rw [hg] at h; cases h
  | ok w =>
    rw [hg] at h
    simp only [py_bind_ok, py_pure, Except.ok.injEq] at h
    have hw : w ∈ pyWords line := by
      unfold getE at hg
      split at hg
      · rename_i x hx
        cases hg
        exact List.mem_of_getElem? hx
      · cases hg
    have hn : '\n' ∉ strip w := by
      intro hm
      have := wordsAux_mem [] line (by simp) w hw _ (strip_mem hm)
      exact absurd this (by decide)
    have hn2 : '\n' ∉ (if (strip w).contains '.' then splitFirst (strip w) '.' else strip w) := by
      split
      · intro hm
        unfold splitFirst at hm
        exact hn ((List.takeWhile_sublist _).mem hm)
      · exact hn
    intro hm
    rw [← h, List.mem_map] at hm
    obtain ⟨c, hc, he⟩ := hm
    split at he
    · exact absurd he (by decide)
    · rw [he] at hc; exact hn2 hc

/-- The log section and column 8 found by genpages have no newline. -/
theorem pagesInfo_newline {fs : FileSystem} {fuel : Nat} {lines : List Str} {st : PagesState}
    (h : pagesInfo fs fuel lines = .ok st) :
    (∀ s, st.section_ = some s → '\n' ∉ s) ∧ '\n' ∉ st.col8.toStr := by
  unfold pagesInfo at h
  obtain ⟨d, hd⟩ := C60_total fs fuel lines
  rw [hd, py_bind_ok] at h
  have h0 : (∀ s, d.logSection = some s → '\n' ∉ s) ∧ '\n' ∉ d.logSectionCol8.toStr := by
    rcases C60_log_section _ _ _ _ _ _ _ _ hd with ⟨h1, h2, -⟩ | ⟨pre, c, post, t, h1, -, -, h4, h5, h6⟩
    · rw [h1, h2]
      exact ⟨fun s e => (nomatch e), by decide⟩
    · obtain ⟨hc1, hc2⟩ : '\n' ∉ c.line ∧ ∀ v, Card.column8 c = .ok v → '\n' ∉ v.toStr := by
        obtain ⟨d', hd', hcards⟩ : ∃ d', Deck.init fs fuel (some lines) none DEFAULT_WIDTH
            DEFAULT_FIELDS argusClass = .ok d' ∧ d'.cards = d.cards := by
          unfold ArgusDeck.init at hd
          cases hx : Deck.init fs fuel (some lines) none DEFAULT_WIDTH DEFAULT_FIELDS argusClass with
          | error e => rw [hx] at hd; cases hd
          | ok d' =>
            rw [hx, py_bind_ok] at hd
            refine ⟨d', rfl, ?_⟩
            cases hl : ArgusDeck.findLog d'.cards with
            | error e => rw [hl] at hd; cases hd
            | ok l => rw [hl] at hd; cases hd; rfl
        obtain ⟨d'', hd'', -, hm, -, -⟩ := C56_lines fs fuel argusClass (Or.inl rfl) none (Or.inl rfl)
          lines
        rw [hd'] at hd''
        cases hd''
        have hcm : c ∈ d'.cards := by rw [hcards, h1]; simp
        obtain ⟨p, hp, hpc⟩ := mapM_ok_mem hm hcm
        have hph : p.1.head? ≠ some '#' := by
          have := List.of_mem_filter hp
          simpa using this
        refine ⟨?_, ?_⟩
        · rw [(card_keeps (Or.inl rfl) hph hpc).1]
          intro hn
          simpa using List.of_mem_filter hn
        · intro v hv
          have hcc := codeCard_src ⟨[], p.2, p.1⟩ hph
          rw [argus_eq p.1 hph] at hpc
          cases hpc
          obtain ⟨-, -, h3, -⟩ := argus_items p.1 p.2
          unfold Card.column8 PunchCard.item PunchCard.record PunchCard.getBody at hv
          simp only [py_bind_ok, py_pure, h3, Except.ok.injEq] at hv
          rw [← hv]
          unfold val
          cases he : PunchCard.entry (columns p.1 8 9) with
          | none => decide
          | some t =>
            show '\n' ∉ t
            obtain ⟨rfl, hne⟩ := entry_some.1 he
            intro hm
            have h1 := strip_mem hm
            have hl : (columns p.1 8 9).length ≤ 1 := by
              unfold columns; simp
            obtain ⟨x, hx⟩ : ∃ x, columns p.1 8 9 = [x] := by
              match hcol : columns p.1 8 9, hl with
              | [], _ => rw [hcol] at h1; cases h1
              | [x], _ => exact ⟨x, rfl⟩
            rw [hx] at h1 hm
            rw [List.mem_singleton] at h1
            rw [← h1] at hm
            exact absurd hm (by decide)
      refine ⟨?_, hc2 _ h6⟩
      intro s hs
      rw [h5] at hs
      cases hs
      intro hm
      obtain ⟨-, a, b, -, -, e⟩ := h4
      have : '\n' ∈ columns c.line 9 82 := by
        rw [e]; exact List.mem_append_left _ (List.mem_append_right _ hm)
      unfold columns at this
      exact hc1 (List.mem_of_mem_drop (List.mem_of_mem_take this))
  clear hd
  have key : ∀ (ls : List Str) (s : Option Str × RVal) (p : Option (Int × Int)),
      ls.foldlM pagesStep ⟨s.1, s.2, p⟩ = .ok st →
      ((∀ x, s.1 = some x → '\n' ∉ x) ∧ '\n' ∉ s.2.toStr) →
      (∀ x, st.section_ = some x → '\n' ∉ x) ∧ '\n' ∉ st.col8.toStr := by
    intro ls
    induction ls with
    | nil => intro s p h h0; cases h; exact h0
    | cons l ls ih =>
      intro s p h h0
      rw [List.foldlM_cons, pagesStep_split] at h
      cases h1 : secStep s l with
      | error e => rw [h1] at h; cases h
      | ok s1 =>
        cases h2 : pgStep p l with
        | error e => rw [h1, h2] at h; cases h
        | ok p1 =>
          rw [h1, h2] at h
          refine ih s1 p1 h ?_
          unfold secStep at h1
          split at h1
          · cases hx : sectionOf l with
            | error e => rw [hx] at h1; cases h1
            | ok x =>
              rw [hx] at h1
              cases h1
              refine ⟨fun y hy => ?_, (by decide : '\n' ∉ py "@")⟩
              cases hy
              exact sectionOf_newline hx
          · cases h1; exact h0
  exact key lines (d.logSection, d.logSectionCol8) none h h0

/-- C133: running genpages on a file adds only lines without code at its end. -/
theorem C133_same_code (fs fs' : FileSystem) (fuel : Nat) (args : List Str)
    (h : genpages fs fuel args = (fs', .ok ())) : SameCode fs fs' := by
  unfold genpages at h
  cases args with
  | nil => cases h
  | cons file args =>
    simp only at h
    cases hf : fs file with
    | none => rw [hf] at h; cases h
    | some text =>
      rw [hf] at h
      simp only at h
      cases hi : pagesInfo fs fuel (readlines text) with
      | error e => rw [hi] at h; cases h
      | ok st =>
        rw [hi] at h
        simp only at h
        obtain ⟨hsec, hcol⟩ := pagesInfo_newline hi
        cases hs : st.section_ with
        | none => rw [hs] at h; cases h
        | some sec =>
          rw [hs] at h
          cases hp : st.pages with
          | none => rw [hp] at h; cases h
          | some p =>
            obtain ⟨start, end_⟩ := p
            rw [hp] at h
            simp only at h
            split at h
            · cases h
            · have hfs : fs' = writeFile fs file
                  (text ++ (pagesLines st.col8 sec start end_).flatten) := by
                cases h; rfl
              have hsec := hsec sec hs
              intro g
              by_cases hg : g = file
              · subst hg
                refine Or.inr ⟨text, _, hf, by rw [hfs, writeFile, if_pos rfl], ?_⟩
                unfold pagesLines
                rw [List.cons_append, List.flatten_cons]
                refine readlines_tail text _ ?_
                have hL : ∀ l ∈ ([py "L      " ++ st.col8.toStr ++ sec ++ py "\n"] ++
                    (pyRange start (end_ + 1)).flatMap (pageLines st.col8 sec start)),
                    (∃ t, l = t ++ ['\n'] ∧ '\n' ∉ t) ∧ NoCode l := by
                  intro l hl
                  rcases List.mem_append.1 hl with hl | hl
                  · rw [List.mem_singleton.1 hl]
                    refine ⟨⟨py "L      " ++ st.col8.toStr ++ sec, rfl, ?_⟩,
                      Or.inr (Or.inl (Or.inr (Or.inr rfl)))⟩
                    simp only [List.mem_append, not_or]
                    exact ⟨⟨by decide, hcol⟩, hsec⟩
                  · obtain ⟨n, -, hl⟩ := List.mem_flatMap.1 hl
                    unfold pageLines at hl
                    simp only [List.mem_cons, List.not_mem_nil, or_false] at hl
                    rcases hl with rfl | rfl | rfl | rfl
                    · exact ⟨⟨[], rfl, by simp⟩, Or.inr (Or.inr blank_newline)⟩
                    · refine ⟨⟨py "# Page " ++ pyStr n, rfl, ?_⟩, Or.inl rfl⟩
                      simp only [List.mem_append, not_or]
                      exact ⟨by decide, pyStr_newline n⟩
                    · refine ⟨⟨_, rfl, ?_⟩, Or.inl rfl⟩
                      have hpad : '\n' ∉ padLeft ' ' 4 (pyStr (n - start + 1)) := by
                        unfold padLeft
                        simp only [List.mem_append, not_or, List.mem_replicate]
                        exact ⟨fun e => absurd e.2 (by decide), pyStr_newline _⟩
                      have hpr : '\n' ∉ padRight 72 sec := by
                        unfold padRight
                        simp only [List.mem_append, not_or, List.mem_replicate]
                        exact ⟨hsec, fun e => absurd e.2 (by decide)⟩
                      simp only [List.mem_append, not_or]
                      exact ⟨⟨⟨⟨⟨⟨by decide, hcol⟩, hpr⟩, by decide⟩, hpad⟩, by decide⟩, hpad⟩
                    · exact ⟨⟨[], rfl, by simp⟩, Or.inr (Or.inr blank_newline)⟩
                show ∀ l ∈ readlines (List.flatten _), _
                rw [readlines_lines fun l hl => (hL l hl).1]
                exact fun l hl => (hL l hl).2
              · have : fs' g = fs g := by rw [hfs, writeFile, if_neg hg]
                rw [this]
                cases hgf : fs g with
                | none => exact Or.inl ⟨rfl, rfl⟩
                | some t =>
                  refine Or.inr ⟨t, t, rfl, rfl, ?_⟩
                  have := extends_same (readlines t) [] (by simp)
                  rwa [List.append_nil] at this

/-- C133: running genpages on a file does not change what the other tools report, on any files. -/
theorem C133_reports (fs fs' : FileSystem) (fuel' : Nat) (pargs : List Str)
    (hg : genpages fs fuel' pargs = (fs', .ok ())) (fuel : Nat) (upper : Str → Str)
    (extract : Str → List Str → Nat → List Str) (args : List Str) :
    (∀ details, listInstructions fs' fuel details args = listInstructions fs fuel details args) ∧
    listSymbols upper fs' fuel args = listSymbols upper fs fuel args ∧
    (∀ complex, checkSymbols upper extract fs' fuel complex args =
      checkSymbols upper extract fs fuel complex args) ∧
    (∀ b e f x, findSymbols upper extract fs' fuel b e f x args =
      findSymbols upper extract fs fuel b e f x args) ∧
    (∀ opts, (checkInstructions fs' fuel opts args).map (List.filter notLines) =
      (checkInstructions fs fuel opts args).map (List.filter notLines)) ∧
    (parseMain upper fs' fuel args).map (fun st => { st with linecount := 0 }) =
      (parseMain upper fs fuel args).map (fun st => { st with linecount := 0 }) :=
  C132_reports fs fs' (C133_same_code fs fs' fuel' pargs hg) fuel upper extract args

/-- The example file of C86 before and after genpages: one instruction is listed, and the number of
lines goes from 2 to 8. -/
example : (genpages pagesFs 5 [py "A.arg"]).2 = .ok () ∧
    listInstructions (genpages pagesFs 5 [py "A.arg"]).1 5 false [py "TN", py "A.arg"] =
      .ok [py "        X          TN"] ∧
    (deckCards pagesFs 5 (py "A.arg")).map List.length = .ok 2 ∧
    (deckCards (genpages pagesFs 5 [py "A.arg"]).1 5 (py "A.arg")).map List.length = .ok 8 := by
  decide +kernel

end H800
