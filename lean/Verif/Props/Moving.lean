import Verif.Lemmas.Moving

/-!
Property C230: reports of files that change while they are read.
-/

namespace H800

open Spec

/-! ### C230 -/

/-- C230, the property as stated: if the files change while check-instructions or parse is running, it
reports what it would report if the files did not change and were what they are, each at one moment of
the run. -/
def C230_statement : Prop :=
  (∀ (w : World) (fuel : Nat) (opts : CheckOpts) (files : List Str) (t : Nat) (st : CheckState),
    checkFilesT w fuel opts files CheckState.init = (t, .ok st) →
    ∃ fs, Snapshot w 0 t fs ∧ checkFiles fs fuel opts files CheckState.init = .ok st) ∧
  ∀ (upper : Str → Str) (w : World) (fuel : Nat) (files : List Str) (t : Nat) (st : ParseState),
    parseMainT upper w fuel files = (t, .ok st) →
    ∃ fs, Snapshot w 0 t fs ∧ parseMain upper fs fuel files = .ok st

theorem checkFiles_eq (fs : FileSystem) (fuel : Nat) (opts : CheckOpts) (files : List Str)
    (st : CheckState) : checkFiles fs fuel opts files st =
      filesFs fs fuel (fun st _ cards => .ok (cards.foldl (checkStep opts) st)) files st := rfl

theorem parseDecks_eq (fs : FileSystem) (fuel : Nat) (files : List Str) (st : ParseState) :
    parseDecks fs fuel files st =
      filesFs fs fuel (fun st _ cards => .ok (cards.foldl parseStep st)) files st := rfl

theorem parseSymbols_eq (upper : Str → Str) (fs : FileSystem) (fuel : Nat) (files : List Str)
    (st : ParseState) : parseSymbols upper fs fuel files st =
      filesFs fs fuel (fun st f cards => do
        let b ← buildCards upper (splitFirst f '.') ⟨st.symtab, py "1", 0, []⟩ cards
        return { st with
          symtab := b.symtab, errcount := b.errcount, fileErrs := st.fileErrs ++ [b.errcount] })
        files st := by
  unfold parseSymbols filesFs
  congr 1
  funext st f
  unfold buildSymbolTable
  cases deckCards fs fuel f <;> rfl

/-- C230: if the files do not change, reading them again and again makes no difference. -/
theorem C230_still (fs : FileSystem) (fuel : Nat) (files : List Str) :
    (∀ opts, (checkFilesT (fun _ => fs) fuel opts files CheckState.init).2 =
      checkFiles fs fuel opts files CheckState.init) ∧
    ∀ upper, (parseMainT upper (fun _ => fs) fuel files).2 = parseMain upper fs fuel files := by
  refine ⟨fun opts => ?_, fun upper => ?_⟩
  · rw [checkFiles_eq]
    exact filesT_still fs fuel _ files 0 _
  · unfold parseMainT parseMain
    split
    · rfl
    · rw [parseSymbols_eq, ← filesT_still fs fuel _ files 0]
      unfold parseSymbolsT
      rcases filesT (fun _ => fs) fuel _ 0 files _ with ⟨t, _ | st⟩
      · rfl
      · simp only [py_bind_ok]
        rw [parseDecks_eq]
        exact filesT_still fs fuel _ files t _

theorem readsT_length {w : World} {files : List Str} {outs : List (List Src)} {os : List (Str × Nat)}
    (h : ReadsT w files outs os) : files.length ≤ os.length := by
  induction h with
  | nil => exact Nat.le_refl _
  | cons h _ ih =>
    obtain ⟨s, text, os', -, -, rfl⟩ := h
    simp only [List.length_cons, List.length_append]
    omega

/-- C230, check-instructions: the lines it deals with are those of the files as they are when they are
opened, one after the other, each file being there at the access before; there are two accesses for each
file given and three for each included; and if no file opened twice has changed in between, it reports what
it would report of files that do not change. -/
theorem C230_check_partial (w : World) (fuel : Nat) (opts : CheckOpts) (files : List Str) (t : Nat)
    (st : CheckState) (h : checkFilesT w fuel opts files CheckState.init = (t, .ok st)) :
    ∃ outs os, ReadsT w files outs os ∧ Moments 0 t os ∧ Sighted w os ∧
      t = 2 * files.length + 3 * (os.length - files.length) ∧
      st = (outs.flatten.map srcCard).foldl (checkStep opts) CheckState.init ∧
      (Steady w os →
        ∃ fs, Snapshot w 0 t fs ∧ checkFiles fs fuel opts files CheckState.init = .ok st) := by
  obtain ⟨h0, outs, os, h1, ⟨h2, h5, h6⟩, h3, h4⟩ := filesT_sound h
  refine ⟨outs, os, h1, h2, h5, ?_, ?_, fun hn => ?_⟩
  · have := readsT_length h1
    omega
  · clear h h2 h4 h5 h6
    have : ∀ st0, (List.zip files outs).foldlM (m := Except PyErr)
        (fun st p => .ok ((p.2.map srcCard).foldl (checkStep opts) st)) st0 =
        .ok ((outs.flatten.map srcCard).foldl (checkStep opts) st0) := by
      clear h3
      induction h1 with
      | nil => exact fun _ => rfl
      | cons _ _ ih =>
        intro st0
        rw [List.zip_cons_cons, List.foldlM_cons]
        simp only [py_bind_ok, ih, List.flatten_cons, List.map_append, List.foldl_append]
    rw [this] at h3
    exact (Except.ok.inj h3).symm
  · obtain ⟨fs, h5, h6⟩ := exists_snapshot h2 h0 hn
    exact ⟨fs, h5, h4 fs h6⟩

/-- C230, parse: the symbols are those of the files as they are when they are read first, and the lines
and errors those of the files as they are when they are read again; for each reading there are files that
do not change if no file opened twice in it has changed in between, and for both if this is so in both. -/
theorem C230_parse_partial (upper : Str → Str) (w : World) (fuel : Nat) (files : List Str) (t : Nat)
    (st : ParseState) (h : parseMainT upper w fuel files = (t, .ok st)) :
    ∃ t1 st1 outs outs' os os', t1 ≤ t ∧ ReadsT w files outs os ∧ ReadsT w files outs' os' ∧
      Moments 0 t1 os ∧ Moments t1 t os' ∧ Sighted w os ∧ Sighted w os' ∧
      (Steady w os →
        ∃ fs, Snapshot w 0 t1 fs ∧ parseSymbols upper fs fuel files ⟨0, 0, 0, [], []⟩ = .ok st1) ∧
      (Steady w os' → ∃ fs, Snapshot w t1 t fs ∧ parseDecks fs fuel files st1 = .ok st) ∧
      (Steady w (os ++ os') → ∃ fs, Snapshot w 0 t fs ∧ parseMain upper fs fuel files = .ok st) ∧
      st.symtab = st1.symtab ∧ st.fileErrs = st1.fileErrs := by
  unfold parseMainT at h
  split at h
  · cases h
  · rename_i hlen
    rcases hs : parseSymbolsT upper w fuel 0 files ⟨0, 0, 0, [], []⟩ with ⟨t1, _ | st1⟩
    · rw [hs] at h; cases h
    · rw [hs] at h
      simp only at h
      obtain ⟨a0, outs, os, a1, ⟨a2, a5, -⟩, a3, a4⟩ := filesT_sound hs
      obtain ⟨b0, outs', os', b1, ⟨b2, b5, -⟩, b3, b4⟩ := filesT_sound h
      refine ⟨t1, st1, outs, outs', os, os', b0, a1, b1, a2, b2, a5, b5, fun hn => ?_, fun hn => ?_, fun hn => ?_, ?_⟩
      · obtain ⟨fs, h5, h6⟩ := exists_snapshot a2 a0 hn
        exact ⟨fs, h5, by rw [parseSymbols_eq]; exact a4 fs h6⟩
      · obtain ⟨fs, h5, h6⟩ := exists_snapshot b2 b0 hn
        exact ⟨fs, h5, by rw [parseDecks_eq]; exact b4 fs h6⟩
      · obtain ⟨fs, h5, h6⟩ :=
          exists_snapshot (moments_append a2 b2 a0 (Nat.le_refl _) b0) (Nat.zero_le _) hn
        refine ⟨fs, h5, ?_⟩
        have h7 := seenIn_append.1 h6
        unfold parseMain
        rw [if_neg hlen, parseSymbols_eq, a4 fs h7.1]
        simp only [py_bind_ok]
        rw [parseDecks_eq]
        exact b4 fs h7.2
      · have hstep : ∀ (cs : List CodeCard) (s : ParseState),
            (cs.foldl parseStep s).symtab = s.symtab ∧ (cs.foldl parseStep s).fileErrs = s.fileErrs := by
          intro cs
          induction cs with
          | nil => exact fun s => ⟨rfl, rfl⟩
          | cons c cs ih =>
            intro s
            rw [List.foldl_cons, (ih _).1, (ih _).2]
            unfold parseStep
            split
            · exact ⟨rfl, rfl⟩
            · exact ⟨rfl, rfl⟩
            · dsimp only
              split
              · exact ⟨rfl, rfl⟩
              · split <;> exact ⟨rfl, rfl⟩
        have : ∀ (l : List (Str × List Src)) (s s' : ParseState),
            l.foldlM (m := Except PyErr) (fun s p => .ok ((p.2.map srcCard).foldl parseStep s)) s = .ok s' →
            s'.symtab = s.symtab ∧ s'.fileErrs = s.fileErrs := by
          intro l
          induction l with
          | nil => intro s s' h; cases h; exact ⟨rfl, rfl⟩
          | cons p l ih =>
            intro s s' h
            rw [List.foldlM_cons] at h
            have h1 := ih _ _ h
            rw [(hstep _ _).1, (hstep _ _).2] at h1
            exact h1
        exact this _ _ _ b3

/-! ### Files that are missing or vanish -/

/-- What it means that reading ends with an error when `t` accesses have been made: at FileNotFoundError a
file has vanished between two accesses, and at SystemExit a file has been missing at one. -/
def Lost (w : World) (t : Nat) (e : PyErr) : Prop :=
  (e = .fileNotFound → ∃ s g, s + 1 < t ∧ (w s g).isSome ∧ w (s + 1) g = none) ∧
  (e = .systemExit → ∃ s g, s < t ∧ w s g = none)

theorem readLoopT_lost {w : World} {cls : CardClass} {width : Int} {fields : List Int}
    (hcls : Total cls width fields) {read : Nat → Str → Nat × Py (List PunchCard)}
    (hread : ∀ t name t' e, read t name = (t', .error e) → Lost w t' e) {file : Str} {ls : List Str} :
    ∀ {i t t' : Nat} {e : PyErr},
      Deck.readLoopT w cls width fields read file i t ls = (t', .error e) → Lost w t' e := by
  induction ls with
  | nil => intro i t t' e h; cases h
  | cons l ls ih =>
    intro i t t' e h
    rw [Deck.readLoopT] at h
    split at h
    · exact ih h
    · rename_i h0
      split at h
      · cases hw : firstWord (l.drop 1) with
        | error e' =>
          rw [hw] at h
          unfold firstWord at hw
          split at hw
          · cases hw; cases h; exact ⟨nofun, nofun⟩
          · cases hw
        | ok inc =>
          rw [hw] at h
          simp only at h
          split at h
          · rename_i hn
            cases h
            exact ⟨nofun, fun _ => ⟨t, inc, by omega, Option.isNone_iff_eq_none.1 hn⟩⟩
          · rcases hr : read (t + 1) inc with ⟨t1, e' | ic⟩
            · rw [hr] at h; cases h; exact hread _ _ _ _ hr
            · rw [hr] at h
              simp only at h
              rcases hl : Deck.readLoopT w cls width fields read file (i + 1) t1 ls with ⟨t2, e' | rc⟩
              · rw [hl] at h; cases h; exact ih hl
              · rw [hl] at h; cases h
      · obtain ⟨c, hc⟩ := hcls l (some file) (i + 1) fun e => h0 (startsWith_iff.2 e)
        rw [hc] at h
        simp only at h
        rcases hl : Deck.readLoopT w cls width fields read file (i + 1) t ls with ⟨t2, e' | rc⟩
        · rw [hl] at h; cases h; exact ih hl
        · rw [hl] at h; cases h

theorem readSourceT_lost {w : World} {cls : CardClass} {width : Int} {fields : List Int}
    (hcls : Total cls width fields) {fuel : Nat} : ∀ {t t' : Nat} {file : Str} {e : PyErr},
      Deck.readSourceT w cls width fields fuel t file = (t', .error e) → Lost w t' e := by
  induction fuel with
  | zero => intro t t' file e h; cases h; exact ⟨nofun, nofun⟩
  | succ fuel ih =>
    intro t t' file e h
    rw [Deck.readSourceT] at h
    cases hn : w t file with
    | none =>
      rw [hn] at h
      cases h
      exact ⟨nofun, fun _ => ⟨t, file, by omega, hn⟩⟩
    | some x =>
      rw [hn] at h
      simp only [Option.isNone_some, Bool.false_eq_true, if_false] at h
      cases hf : w (t + 1) file with
      | none =>
        rw [hf] at h
        cases h
        exact ⟨fun _ => ⟨t, file, by omega, by rw [hn]; rfl, hf⟩, nofun⟩
      | some text =>
        rw [hf] at h
        exact readLoopT_lost hcls (fun _ _ _ _ => ih) h

theorem deckCardsT_lost {w : World} {fuel t t' : Nat} {f : Str} {e : PyErr}
    (h : deckCardsT w fuel t f = (t', .error e)) : Lost w t' e := by
  cases f with
  | nil => cases h; exact ⟨nofun, nofun⟩
  | cons c f =>
    rw [deckCardsT] at h
    rcases hr : Deck.readSourceT w argusClass DEFAULT_WIDTH DEFAULT_FIELDS fuel t (c :: f) with ⟨t1, e' | cs⟩
    · rw [hr] at h; cases h; exact readSourceT_lost total_argus hr
    · rw [hr] at h
      simp only [Prod.mk.injEq] at h
      exfalso
      obtain ⟨h0, out, os, ⟨s, text, os', -, b1, -⟩, a2, -⟩ := readSourceT_sound hr
      obtain ⟨⟨l, hl⟩, h2⟩ := findLog_ok (expandT_ne b1) a2
      have hb : ∀ x ∈ cs, ∃ b, x.body = some b := by
        intro x hx
        obtain ⟨s, hs, e⟩ := mapM_ok_mem a2 hx
        exact (card_keeps (Or.inl rfl) (expandT_ne b1 s hs) e).2.2.2
      obtain ⟨bs, -, hcol⟩ := collect_ok (lines := cs.map (·.line)) hb
      have h := h.2
      unfold finishCards at h
      simp only [hcol, py_bind_ok, hl, h2] at h
      cases h

/-- C230: if check-instructions ends with FileNotFoundError, a file has vanished in the moment between the
question whether it exists and its opening; and if it ends with SystemExit, a file has been missing when
it was asked for. -/
theorem C230_lost_partial (w : World) (fuel : Nat) (opts : CheckOpts) (files : List Str) (t : Nat)
    (e : PyErr) (h : checkFilesT w fuel opts files CheckState.init = (t, .error e)) :
    (e = .fileNotFound → ∃ s g, s + 1 < t ∧ (w s g).isSome ∧ w (s + 1) g = none) ∧
    (e = .systemExit → ∃ s g, s < t ∧ w s g = none) := by
  have key : ∀ (files : List Str) (t0 : Nat) (st : CheckState),
      filesT w fuel (fun st _ cards => .ok (cards.foldl (checkStep opts) st)) t0 files st = (t, .error e) →
      Lost w t e := by
    intro files
    induction files with
    | nil => intro t0 st h; cases h
    | cons f files ih =>
      intro t0 st h
      rw [filesT] at h
      rcases hd : deckCardsT w fuel t0 f with ⟨t1, e' | cards⟩
      · rw [hd] at h; cases h; exact deckCardsT_lost hd
      · rw [hd] at h
        exact ih _ _ h
  exact key files 0 _ h

/-! ### Concrete cases -/

/-- A file of one line that gets a second line after two accesses and a third after four; a file that
includes it twice; and a file that is there at first and then vanishes. -/
def growingW : World := fun t f =>
  if f = py "A.arg" then some
    (if t < 2 then py "        A          TN\n"
     else if t < 4 then py "        A          TN\n        B          TX\n"
     else py "        A          TN\n        B          TX\n        C          QQ\n")
  else if f = py "B.arg" then some (py "$A.arg\n")
  else if f = py "C.arg" ∧ t = 0 then some []
  else none

/-- What is asked of check-instructions here. -/
def noOpts : CheckOpts := ⟨false, false, false, false, false, false⟩

/-- Cases of C230: in the first run the file is opened at the second access and has one line; in the second
run it is opened at the fifth and has three. In the last run the file vanishes before it is opened. -/
example : (checkFilesT growingW 10 noOpts [py "A.arg"] CheckState.init).1 = 2 ∧
    ((checkFilesT growingW 10 noOpts [py "A.arg"] CheckState.init).2.toOption.map (·.linecount)) = some 1 ∧
    ((checkFilesT growingW 10 noOpts [py "B.arg"] CheckState.init).2.toOption.map (·.linecount)) = some 3 ∧
    checkFilesT growingW 10 noOpts [py "C.arg"] CheckState.init = (2, .error .fileNotFound) := by
  decide +kernel

theorem growingW_check : ∃ st, checkFilesT growingW 10 noOpts [py "A.arg", py "A.arg"] CheckState.init =
    (4, .ok st) ∧ st.linecount = 3 := by
  have h1 : (checkFilesT growingW 10 noOpts [py "A.arg", py "A.arg"] CheckState.init).1 = 4 := by
    decide +kernel
  have h2 : (checkFilesT growingW 10 noOpts [py "A.arg", py "A.arg"] CheckState.init).2.toOption.map
    (·.linecount) = some 3 := by decide +kernel
  rcases hc : checkFilesT growingW 10 noOpts [py "A.arg", py "A.arg"] CheckState.init with ⟨t, e | st⟩
  · rw [hc] at h2; cases h2
  · rw [hc] at h1 h2
    exact ⟨st, by rw [show t = 4 from h1], Option.some.inj h2⟩

/-- The number of lines of a file that is given twice is even if it does not change. -/
theorem twice_even {fs : FileSystem} {fuel : Nat} {opts : CheckOpts} {f : Str} {st : CheckState}
    (h : checkFiles fs fuel opts [f, f] CheckState.init = .ok st) : ∃ n, st.linecount = n + n := by
  obtain ⟨out, ⟨outs, h1, rfl⟩, rfl⟩ := foldFiles_ok h
  cases h1 with
  | cons a h1 =>
    cases h1 with
    | cons b h1 =>
      cases h1
      rw [expands_unique a b]
      have : ∀ (cs : List CodeCard) (s : CheckState),
          (cs.foldl (checkStep opts) s).linecount = s.linecount + cs.length := by
        intro cs
        induction cs with
        | nil => exact fun s => rfl
        | cons c cs ih =>
          intro s
          rw [List.foldl_cons, ih, List.length_cons]
          have : (checkStep opts s c).linecount = s.linecount + 1 := by
            unfold checkStep
            dsimp only
            repeat' split
            all_goals rfl
          omega
      exact ⟨_, by rw [this]; simp [CheckState.init]; rfl⟩

/-- C230 is false: a file that is given twice and gets a second line between gives three lines. -/
theorem C230_refuted : ¬ C230_statement := by
  intro h
  obtain ⟨st, h1, h2⟩ := growingW_check
  obtain ⟨fs, -, h3⟩ := h.1 _ _ _ _ _ _ h1
  obtain ⟨n, hn⟩ := twice_even h3
  omega

/-- What parse makes of the cards of one file. -/
def parseCards (cards : List CodeCard) : Py ParseState := do
  let b ← buildCards id (py "A") ⟨[], py "1", 0, []⟩ cards
  return cards.foldl parseStep ⟨b.errcount, 0, 0, b.symtab, [b.errcount]⟩

theorem parse_one {fs : FileSystem} {fuel : Nat} {st : ParseState} {out : List Src}
    (h : parseMain id fs fuel [py "A.arg"] = .ok st) (ho : Expands fs (py "A.arg") out) :
    parseCards (out.map srcCard) = .ok st := by
  unfold parseMain parseSymbols parseDecks buildSymbolTable at h
  simp only [List.length_singleton, Nat.lt_irrefl, if_false, List.foldlM_cons, List.foldlM_nil] at h
  cases hd : deckCards fs fuel (py "A.arg") with
  | error e => rw [hd] at h; cases h
  | ok cards =>
    obtain ⟨-, out', h1, rfl⟩ := deckCards_ok hd
    rw [expands_unique h1 ho] at hd
    rw [hd] at h
    simp only [py_bind_ok] at h
    unfold parseCards
    cases hb : buildCards id (py "A") ⟨[], py "1", 0, []⟩ (out.map srcCard) with
    | error e =>
      rw [show splitFirst (py "A.arg") '.' = py "A" by decide, hb] at h
      cases h
    | ok b =>
      rw [show splitFirst (py "A.arg") '.' = py "A" by decide, hb] at h
      exact h

/-- The lines of the file. -/
def growingLines : List Src := [⟨py "A.arg", 1, py "        A          TN\n"⟩,
  ⟨py "A.arg", 2, py "        B          TX\n"⟩, ⟨py "A.arg", 3, py "        C          QQ\n"⟩]

theorem growing_expands {t : Nat} {fs : FileSystem} (h : fs (py "A.arg") = growingW t (py "A.arg")) :
    ∃ k < 3, Expands fs (py "A.arg") (growingLines.take (k + 1)) := by
  have e : growingW t (py "A.arg") = some
    (if t < 2 then py "        A          TN\n"
     else if t < 4 then py "        A          TN\n        B          TX\n"
     else py "        A          TN\n        B          TX\n        C          QQ\n") := if_pos rfl
  rw [e] at h
  have k : ∀ {text : Str} {ls : List Str} {out : List Src}, fs (py "A.arg") = some text →
      readlines text = ls → Expand fs (py "A.arg") 1 ls out → Expands fs (py "A.arg") out :=
    fun h1 h2 h3 => ⟨_, h1, h2 ▸ h3⟩
  split at h
  · exact ⟨0, by omega, k h (ls := (growingLines.take 1).map (·.text)) (by decide)
      (.plain (by decide) (by decide) (.nil _ _))⟩
  · split at h
    · exact ⟨1, by omega, k h (ls := (growingLines.take 2).map (·.text)) (by decide)
        (.plain (by decide) (by decide) (.plain (by decide) (by decide) (.nil _ _)))⟩
    · exact ⟨2, by omega, k h (ls := growingLines.map (·.text)) (by decide)
        (.plain (by decide) (by decide) (.plain (by decide) (by decide)
          (.plain (by decide) (by decide) (.nil _ _))))⟩

/-- It is false of parse also for one file that is given once: here the symbol `B` is not in the table, and
the line that defines it is counted. -/
theorem C230_refuted_parse : ∃ st, parseMainT id growingW 10 [py "A.arg"] = (4, .ok st) ∧
    ¬ ∃ fs, Snapshot growingW 0 4 fs ∧ parseMain id fs 10 [py "A.arg"] = .ok st := by
  have h1 : (parseMainT id growingW 10 [py "A.arg"]).1 = 4 := by decide +kernel
  have h2 : (parseMainT id growingW 10 [py "A.arg"]).2.toOption.map
    (fun st => (st.linecount, (dget st.symtab (py "B")).isSome)) = some (2, false) := by decide +kernel
  rcases hc : parseMainT id growingW 10 [py "A.arg"] with ⟨t, e | st⟩
  · rw [hc] at h2; cases h2
  · rw [hc] at h1 h2
    refine ⟨st, by rw [show t = 4 from h1], ?_⟩
    rintro ⟨fs, hs, h3⟩
    obtain ⟨t, -, -, hf⟩ := hs (py "A.arg")
    obtain ⟨k, hk, he⟩ := growing_expands hf
    have h4 := parse_one h3 he
    have h5 : ∀ k < 3, (parseCards ((growingLines.take (k + 1)).map srcCard)).toOption.map
      (fun st => (st.linecount, (dget st.symtab (py "B")).isSome)) ≠ some (2, false) := by decide +kernel
    refine h5 k hk ?_
    rw [h4]
    exact h2

end H800
