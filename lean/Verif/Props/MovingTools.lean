import Verif.Props.Moving

/-!
Property C232: what list-instructions and the symbol tools print of files that change while they are read.
-/

namespace H800

open Spec

/-- What is printed in the run `rt` of files that change is what `r` prints of files that do not change and
are what they are, each at one moment of the run. -/
def OneState {α : Type} (w : World) (rt : Nat × Py α) (r : FileSystem → Py α) : Prop :=
  ∀ t a, rt = (t, .ok a) → ∃ fs, Snapshot w 0 t fs ∧ r fs = .ok a

/-- C232, the property as stated: if the files change while list-instructions, check-symbols, find-symbols
or list-symbols is running, it prints what it would print if the files did not change and were what they
are, each at one moment of the run. -/
def C232_statement : Prop :=
  (∀ (w : World) (fuel : Nat) (details : Bool) (args : List Str),
    OneState w (listInstructionsT w fuel details args) fun fs => listInstructions fs fuel details args) ∧
  ∀ (upper : Str → Str) (extract : Str → List Str → Nat → List Str) (w : World) (fuel : Nat)
    (args : List Str),
    (∀ complex, OneState w (checkSymbolsT upper extract w fuel complex args)
      fun fs => checkSymbols upper extract fs fuel complex args) ∧
    (∀ begin end_ fuzzy exact, OneState w (findSymbolsT upper extract w fuel begin end_ fuzzy exact args)
      fun fs => findSymbols upper extract fs fuel begin end_ fuzzy exact args) ∧
    OneState w (listSymbolsT upper w fuel args) fun fs => listSymbols upper fs fuel args

theorem buildAll_eq (upper : Str → Str) (fs : FileSystem) (fuel : Nat) (files : List Str) :
    buildAll upper fs fuel files =
      filesFs fs fuel (fun r f cards => do
        let b ← buildCards upper (splitFirst f '.') ⟨r.1, py "1", 0, []⟩ cards
        return (b.symtab, r.2.1 ++ [b.errcount], r.2.2 + b.errcount)) files ([], [], 0) := by
  unfold buildAll filesFs
  congr 1
  funext st f
  unfold buildSymbolTable
  cases deckCards fs fuel f <;> rfl

/-- Reading all files and then listing is listing one after the other. -/
theorem listAll_eq (fs : FileSystem) (fuel : Nat) (g : List CodeCard → List Str) (files : List Str)
    (out : List Str) :
    (do let decks ← files.mapM (deckCards fs fuel); return out ++ decks.flatMap g) =
      filesFs fs fuel (fun out _ cards => .ok (out ++ g cards)) files out := by
  unfold filesFs
  induction files generalizing out with
  | nil => simp
  | cons f files ih =>
    rw [List.mapM_cons, List.foldlM_cons]
    cases deckCards fs fuel f with
    | error e => rfl
    | ok cards =>
      simp only [py_bind_ok]
      rw [← ih]
      cases files.mapM (deckCards fs fuel) with
      | error e => rfl
      | ok decks => simp only [py_bind_ok, py_pure, List.flatMap_cons, List.append_assoc]

theorem listInstructions_eq (fs : FileSystem) (fuel : Nat) (details : Bool) (opcode : Str)
    (files : List Str) : listInstructions fs fuel details (opcode :: files) =
      if ¬ INSTRUCTIONS.contains (if opcode.contains ',' then splitFirst opcode ',' else opcode) then
        .error .systemExit
      else filesFs fs fuel (fun out _ cards =>
        .ok (out ++ (cards.filter (listed opcode)).map (listLine details))) files [] := by
  rw [← listAll_eq]
  rfl

/-- C232: if the files do not change, reading them again and again makes no difference. -/
theorem C232_still (fs : FileSystem) (fuel : Nat) (args : List Str) :
    (∀ details, (listInstructionsT (fun _ => fs) fuel details args).2 =
      listInstructions fs fuel details args) ∧
    ∀ upper extract,
      (∀ complex, (checkSymbolsT upper extract (fun _ => fs) fuel complex args).2 =
        checkSymbols upper extract fs fuel complex args) ∧
      (∀ begin end_ fuzzy exact,
        (findSymbolsT upper extract (fun _ => fs) fuel begin end_ fuzzy exact args).2 =
          findSymbols upper extract fs fuel begin end_ fuzzy exact args) ∧
      (listSymbolsT upper (fun _ => fs) fuel args).2 = listSymbols upper fs fuel args := by
  have hb : ∀ upper files, (buildAllT upper (fun _ => fs) fuel files).2 = buildAll upper fs fuel files :=
    fun upper files => by rw [buildAll_eq]; exact filesT_still fs fuel _ files 0 _
  refine ⟨fun details => ?_, fun upper extract => ⟨fun complex => ?_, fun b e f x => ?_, ?_⟩⟩
  · cases args with
    | nil => rfl
    | cons opcode files =>
      rw [listInstructions_eq, ← filesT_still fs fuel _ files 0]
      rw [listInstructionsT]
      by_cases hc : INSTRUCTIONS.contains (if opcode.contains ',' then splitFirst opcode ',' else opcode)
      · rw [if_neg (not_not.2 hc), if_neg (not_not.2 hc)]
      · rw [if_pos hc, if_pos hc]
  · unfold checkSymbolsT checkSymbols
    split
    · rfl
    · rw [← hb]
      rcases buildAllT upper (fun _ => fs) fuel args with ⟨t, e | ⟨s, es, n⟩⟩ <;> rfl
  · unfold findSymbolsT findSymbols
    split
    · rfl
    · rcases args with _ | ⟨symbol, _ | ⟨g, files⟩⟩
      · rfl
      · rfl
      · dsimp only
        rw [← hb]
        rcases buildAllT upper (fun _ => fs) fuel (g :: files) with ⟨t, er | ⟨s, es, n⟩⟩
        · rfl
        · simp only [py_bind_ok]
          rcases (findSymbolDef extract s symbol none b e f).1 with (_ | _) | (_ | _) | _ <;> rfl
  · unfold listSymbolsT listSymbols
    split
    · rfl
    · rw [← hb]
      rcases buildAllT upper (fun _ => fs) fuel args with ⟨t, e | ⟨s, es, n⟩⟩
      · rfl
      · simp only [py_bind_ok]
        cases tableLines s <;> rfl

/-- What the tools read: the files as they are when they are opened, one after the other, each being there at
the access before; there are two accesses for each file given and three for each included. -/
def Opened (w : World) (files : List Str) (t : Nat) (outs : List (List Src)) (os : List (Str × Nat)) : Prop :=
  ReadsT w files outs os ∧ Moments 0 t os ∧ Sighted w os ∧
    t = 2 * files.length + 3 * (os.length - files.length)

theorem opened_of {σ : Type} {w : World} {fuel : Nat} {step : σ → Str → List CodeCard → Py σ}
    {files : List Str} {t : Nat} {st st' : σ} (h : filesT w fuel step 0 files st = (t, .ok st')) :
    ∃ outs os, Opened w files t outs os ∧
      (List.zip files outs).foldlM (fun st p => step st p.1 (p.2.map srcCard)) st = .ok st' ∧
      (Steady w os → ∃ fs, Snapshot w 0 t fs ∧ filesFs fs fuel step files st = .ok st') := by
  obtain ⟨h0, outs, os, h1, ⟨h2, h5, h6⟩, h3, h4⟩ := filesT_sound h
  have hl := readsT_length h1
  refine ⟨outs, os, ⟨h1, h2, h5, by omega⟩, h3, fun hn => ?_⟩
  obtain ⟨fs, h7, h8⟩ := exists_snapshot h2 h0 hn
  exact ⟨fs, h7, h4 fs h8⟩

/-- C232, list-instructions: the lines printed are those of the files as they are when they are opened; and
if no file opened twice has changed in between, they are those of files that do not change. -/
theorem C232_list_partial (w : World) (fuel : Nat) (details : Bool) (opcode : Str) (files : List Str)
    (t : Nat) (out : List Str)
    (h : listInstructionsT w fuel details (opcode :: files) = (t, .ok out)) :
    ∃ outs os, Opened w files t outs os ∧
      out = ((outs.flatten.map srcCard).filter (listed opcode)).map (listLine details) ∧
      (Steady w os → ∃ fs, Snapshot w 0 t fs ∧
        listInstructions fs fuel details (opcode :: files) = .ok out) := by
  simp only [listInstructions_eq]
  rw [listInstructionsT] at h
  by_cases hc : INSTRUCTIONS.contains (if opcode.contains ',' then splitFirst opcode ',' else opcode)
  · rw [if_neg (not_not.2 hc)] at h
    simp only [if_neg (not_not.2 hc)]
    obtain ⟨outs, os, h1, h2, h3⟩ := opened_of h
    refine ⟨outs, os, h1, ?_, h3⟩
    have key : ∀ {files : List Str} {outs : List (List Src)} {os : List (Str × Nat)},
        ReadsT w files outs os → ∀ o, (List.zip files outs).foldlM (m := Except PyErr)
        (fun o p => .ok (o ++ ((p.2.map srcCard).filter (listed opcode)).map (listLine details))) o =
        .ok (o ++ ((outs.flatten.map srcCard).filter (listed opcode)).map (listLine details)) := by
      intro files outs os h
      induction h with
      | nil => intro o; simp
      | cons _ _ ih =>
        intro o
        rw [List.zip_cons_cons, List.foldlM_cons]
        simp only [py_bind_ok, ih, List.flatten_cons, List.map_append, List.filter_append,
          List.append_assoc]
    rw [key h1.1] at h2
    exact (Except.ok.inj h2).symm
  · rw [if_pos hc] at h
    cases h

/-- C232, the symbol tools: the table, the errors of each file and their sum are made of the files as they
are when they are opened; and if no file opened twice has changed in between, they are those of files that
do not change. -/
theorem C232_table_partial (upper : Str → Str) (w : World) (fuel : Nat) (files : List Str) (t : Nat)
    (r : Symtab × List Nat × Nat) (h : buildAllT upper w fuel files = (t, .ok r)) :
    ∃ outs os, Opened w files t outs os ∧
      (List.zip files outs).foldlM (fun (r : Symtab × List Nat × Nat) p => do
        let b ← buildCards upper (splitFirst p.1 '.') ⟨r.1, py "1", 0, []⟩ (p.2.map srcCard)
        return (b.symtab, r.2.1 ++ [b.errcount], r.2.2 + b.errcount)) ([], [], 0) = .ok r ∧
      (Steady w os → ∃ fs, Snapshot w 0 t fs ∧ buildAll upper fs fuel files = .ok r) := by
  simp only [buildAll_eq]
  exact opened_of h

/-- C232: what the symbol tools print is what they would print of files that do not change, if no file
opened twice has changed in between. -/
theorem C232_symbols_partial (upper : Str → Str) (extract : Str → List Str → Nat → List Str) (w : World)
    (fuel : Nat) (args : List Str) :
    (∀ complex t a, checkSymbolsT upper extract w fuel complex args = (t, .ok a) →
      ∃ outs os, Opened w args t outs os ∧ (Steady w os → ∃ fs, Snapshot w 0 t fs ∧
        checkSymbols upper extract fs fuel complex args = .ok a)) ∧
    (∀ begin end_ fuzzy exact t a,
      findSymbolsT upper extract w fuel begin end_ fuzzy exact args = (t, .ok a) →
      ∃ outs os, Opened w args.tail t outs os ∧ (Steady w os → ∃ fs, Snapshot w 0 t fs ∧
        findSymbols upper extract fs fuel begin end_ fuzzy exact args = .ok a)) ∧
    ∀ t a, listSymbolsT upper w fuel args = (t, .ok a) →
      ∃ outs os, Opened w args t outs os ∧ (Steady w os → ∃ fs, Snapshot w 0 t fs ∧
        listSymbols upper fs fuel args = .ok a) := by
  refine ⟨fun complex t a h => ?_, fun b e f x t a h => ?_, fun t a h => ?_⟩
  · unfold checkSymbolsT at h
    split at h
    · cases h
    · rename_i hl
      rcases hb : buildAllT upper w fuel args with ⟨t1, er | ⟨s, es, n⟩⟩
      · rw [hb] at h; cases h
      · rw [hb] at h
        cases h
        obtain ⟨outs, os, h1, -, h2⟩ := C232_table_partial upper w fuel args _ _ hb
        refine ⟨outs, os, h1, fun hn => ?_⟩
        obtain ⟨fs, h3, h4⟩ := h2 hn
        refine ⟨fs, h3, ?_⟩
        unfold checkSymbols
        rw [if_neg hl, h4]
        rfl
  · unfold findSymbolsT at h
    split at h
    · cases h
    · rename_i hl
      rcases args with _ | ⟨symbol, _ | ⟨g, files⟩⟩
      · cases h
      · cases h
      · dsimp only at h
        rcases hb : buildAllT upper w fuel (g :: files) with ⟨t1, er | ⟨s, es, n⟩⟩
        · rw [hb] at h; cases h
        · rw [hb] at h
          dsimp only at h
          obtain ⟨outs, os, h1, -, h2⟩ := C232_table_partial upper w fuel _ t1 _ hb
          have key : t = t1 ∧ ∀ fs, buildAll upper fs fuel (g :: files) = .ok (s, es, n) →
              findSymbols upper extract fs fuel b e f x (symbol :: g :: files) = .ok a := by
            unfold findSymbols
            simp only [if_neg hl]
            revert h
            generalize hq : (findSymbolDef extract s symbol none b e f).1 = q
            intro h
            refine ⟨by rcases q with (_ | _) | (_ | _) | _ <;> cases h <;> rfl, fun fs h4 => ?_⟩
            rw [h4]
            simp only [py_bind_ok, hq]
            rcases q with (_ | _) | (_ | _) | _ <;> cases h <;> rfl
          obtain ⟨rfl, key⟩ := key
          refine ⟨outs, os, h1, fun hn => ?_⟩
          obtain ⟨fs, h3, h4⟩ := h2 hn
          exact ⟨fs, h3, key fs h4⟩
  · unfold listSymbolsT at h
    split at h
    · cases h
    · rename_i hl
      rcases hb : buildAllT upper w fuel args with ⟨t1, er | ⟨s, es, n⟩⟩
      · rw [hb] at h; cases h
      · rw [hb] at h
        dsimp only at h
        cases ht : tableLines s with
        | error er => rw [ht] at h; cases h
        | ok l =>
          rw [ht] at h
          cases h
          obtain ⟨outs, os, h1, -, h2⟩ := C232_table_partial upper w fuel args _ _ hb
          refine ⟨outs, os, h1, fun hn => ?_⟩
          obtain ⟨fs, h3, h4⟩ := h2 hn
          refine ⟨fs, h3, ?_⟩
          unfold listSymbols
          rw [if_neg hl, h4]
          simp only [py_bind_ok, ht]
          rfl

/-- C232: if list-instructions ends with FileNotFoundError, a file has vanished in the moment between the
question whether it exists and its opening; and if it ends with SystemExit, the opcode is not known, or a
file has been missing when it was asked for. -/
theorem C232_lost_partial (w : World) (fuel : Nat) (details : Bool) (opcode : Str) (files : List Str)
    (t : Nat) (e : PyErr)
    (h : listInstructionsT w fuel details (opcode :: files) = (t, .error e)) :
    (e = .fileNotFound → ∃ s g, s + 1 < t ∧ (w s g).isSome ∧ w (s + 1) g = none) ∧
    (e = .systemExit → (if opcode.contains ',' then splitFirst opcode ',' else opcode) ∉ INSTRUCTIONS ∨
      ∃ s g, s < t ∧ w s g = none) := by
  rw [listInstructionsT] at h
  by_cases hc : INSTRUCTIONS.contains (if opcode.contains ',' then splitFirst opcode ',' else opcode)
  · rw [if_neg (not_not.2 hc)] at h
    have key : ∀ (files : List Str) (t0 : Nat) (out : List Str),
        filesT w fuel (fun out _ cards =>
          .ok (out ++ (cards.filter (listed opcode)).map (listLine details))) t0 files out = (t, .error e) →
        Lost w t e := by
      intro files
      induction files with
      | nil => intro t0 st h; cases h
      | cons f files ih =>
        intro t0 st h
        rw [filesT] at h
        rcases hd : deckCardsT w fuel t0 f with ⟨t1, e' | cards⟩
        · rw [hd] at h; cases h; exact deckCardsT_lost hd
        · rw [hd] at h
          exact ih _ _ h
    have := key files 0 _ h
    exact ⟨this.1, fun he => .inr (this.2 he)⟩
  · rw [if_pos hc] at h
    cases h
    exact ⟨nofun, fun _ => .inl fun hm => hc (List.contains_iff_mem.2 hm)⟩

/-! ### Concrete cases -/

/-- A file of one line that is another one after two accesses. -/
def changingW : World := fun t f =>
  if f = py "A.arg" then some
    (if t < 2 then py "        A          TN\n" else py "        B          TX\n")
  else none

/-- Cases of C232: if the file is given twice, the first line is listed once, and the second once; and both
symbols are in the table. -/
example : listInstructionsT changingW 10 false [py "TN", py "A.arg", py "A.arg"] =
      (4, .ok [py "        A          TN"]) ∧
    listInstructionsT changingW 10 false [py "TX", py "A.arg", py "A.arg"] =
      (4, .ok [py "        B          TX"]) ∧
    (listSymbolsT id changingW 10 [py "A.arg", py "A.arg"]).2.toOption.map
      (·.filter fun l => l matches .sym _) = some [.sym (py "A"), .sym (py "B")] := by
  decide +kernel

/-- C232 is false: of files that do not change, a file given twice is listed twice. -/
theorem C232_refuted : ¬ C232_statement := by
  intro h
  have h1 : listInstructionsT changingW 10 false [py "TX", py "A.arg", py "A.arg"] =
      (4, .ok [py "        B          TX"]) := by decide +kernel
  obtain ⟨fs, -, h2⟩ := h.1 _ _ _ _ _ _ h1
  dsimp only at h2
  rw [listInstructions_eq, if_neg (by decide +kernel)] at h2
  unfold filesFs at h2
  simp only [List.foldlM_cons, List.foldlM_nil] at h2
  cases hd : deckCards fs 10 (py "A.arg") with
  | error e => rw [hd] at h2; cases h2
  | ok cards =>
    rw [hd] at h2
    simp only [py_bind_ok, List.nil_append] at h2
    have h3 := congrArg List.length (Except.ok.inj h2)
    simp only [List.length_append, List.length_singleton] at h3
    omega

/-- What list-symbols prints of cards that are read twice. -/
def twiceCards (cards : List CodeCard) : Py (List ListLine) := do
  let b ← buildCards id (py "A") ⟨[], py "1", 0, []⟩ cards
  let b' ← buildCards id (py "A") ⟨b.symtab, py "1", 0, []⟩ cards
  let l ← tableLines b'.symtab
  return l ++ if b.errcount + b'.errcount > 0 then [.errors (b.errcount + b'.errcount)] else []

/-- The line of the file, before and after. -/
def changingLines : Bool → List Src
  | true => [⟨py "A.arg", 1, py "        A          TN\n"⟩]
  | false => [⟨py "A.arg", 1, py "        B          TX\n"⟩]

theorem changing_expands {t : Nat} {fs : FileSystem} (h : fs (py "A.arg") = changingW t (py "A.arg")) :
    ∃ b, Expands fs (py "A.arg") (changingLines b) := by
  have e : changingW t (py "A.arg") = some
    (if t < 2 then py "        A          TN\n" else py "        B          TX\n") := if_pos rfl
  rw [e] at h
  have k : ∀ {text : Str} {ls : List Str} {out : List Src}, fs (py "A.arg") = some text →
      readlines text = ls → Expand fs (py "A.arg") 1 ls out → Expands fs (py "A.arg") out :=
    fun h1 h2 h3 => ⟨_, h1, h2 ▸ h3⟩
  split at h
  · exact ⟨true, k h (ls := (changingLines true).map (·.text)) (by decide)
      (.plain (by decide) (by decide) (.nil _ _))⟩
  · exact ⟨false, k h (ls := (changingLines false).map (·.text)) (by decide)
      (.plain (by decide) (by decide) (.nil _ _))⟩

/-- It is false of the symbol tools also: here there are two symbols, and never two lines. -/
theorem C232_refuted_symbols : ∃ a, listSymbolsT id changingW 10 [py "A.arg", py "A.arg"] = (4, .ok a) ∧
    ¬ ∃ fs, Snapshot changingW 0 4 fs ∧ listSymbols id fs 10 [py "A.arg", py "A.arg"] = .ok a := by
  have h1 : (listSymbolsT id changingW 10 [py "A.arg", py "A.arg"]).1 = 4 := by decide +kernel
  have h2 : (listSymbolsT id changingW 10 [py "A.arg", py "A.arg"]).2.toOption.map
    (fun l => (l.contains (.sym (py "A")), l.contains (.sym (py "B")))) = some (true, true) := by
      decide +kernel
  rcases hc : listSymbolsT id changingW 10 [py "A.arg", py "A.arg"] with ⟨t, e | a⟩
  · rw [hc] at h2; cases h2
  · rw [hc] at h1 h2
    refine ⟨a, by rw [show t = 4 from h1], ?_⟩
    rintro ⟨fs, hs, h3⟩
    obtain ⟨t, -, -, hf⟩ := hs (py "A.arg")
    obtain ⟨k, he⟩ := changing_expands hf
    have h4 : twiceCards ((changingLines k).map srcCard) = .ok a := by
      unfold listSymbols buildAll buildSymbolTable at h3
      rw [if_neg (by decide)] at h3
      simp only [List.foldlM_cons, List.foldlM_nil] at h3
      cases hd : deckCards fs 10 (py "A.arg") with
      | error e => rw [hd] at h3; cases h3
      | ok cards =>
        obtain ⟨-, out', h1, rfl⟩ := deckCards_ok hd
        rw [expands_unique h1 he] at hd
        rw [hd] at h3
        simp only [py_bind_ok, show splitFirst (py "A.arg") '.' = py "A" by decide] at h3
        unfold twiceCards
        cases hb : buildCards id (py "A") ⟨[], py "1", 0, []⟩ ((changingLines k).map srcCard) with
        | error e => rw [hb] at h3; cases h3
        | ok b =>
          rw [hb] at h3
          simp only [py_bind_ok, py_pure] at h3 ⊢
          cases hb' : buildCards id (py "A") ⟨b.symtab, py "1", 0, []⟩
              ((changingLines k).map srcCard) with
          | error e => rw [hb'] at h3; cases h3
          | ok b' =>
            rw [hb'] at h3
            simp only [py_bind_ok, Nat.zero_add] at h3 ⊢
            exact h3
    have h5 : ∀ k, (twiceCards ((changingLines k).map srcCard)).toOption.map
      (fun l => (l.contains (.sym (py "A")), l.contains (.sym (py "B")))) ≠ some (true, true) := by
        decide +kernel
    refine h5 k ?_
    rw [h4]
    exact h2

end H800
