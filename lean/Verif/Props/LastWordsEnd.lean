import Verif.Props.LastWords

/-!
C180: each command line is of one of three kinds, and what is said agrees with how the run ends. C181: the
name of the program in what is said about a command line.
-/

namespace H800

open Spec
open scoped Classical

/-- C180: a command line asks for help, or has a word that is not understood, or is understood. It is not
two of these, and there is one fault at most. -/
theorem C180_kinds {opts : List Opt} (hg : GoodOpts opts) (argv : List Str) :
    (HelpFirst opts argv ∨ (∃ fault, NotUnderstood opts argv fault) ∨
      ∃ os args, Means opts argv os args ∧ ¬ ∃ o ∈ os, o.dest = none) ∧
    (∀ fault, NotUnderstood opts argv fault → ¬ HelpFirst opts argv ∧
      (∀ os args, ¬ Means opts argv os args) ∧ ∀ fault', NotUnderstood opts argv fault' → fault' = fault) ∧
    ∀ os args, Means opts argv os args → (HelpFirst opts argv ↔ ∃ o ∈ os, o.dest = none) := by
  have hhelp : HelpFirst opts argv ↔ parseArgs opts argv = .error .help := (help_iff hg argv [] _).symm
  refine ⟨?_, fun fault hf => ?_, fun os args hm => ?_⟩
  · cases hp : parseArgs opts argv with
    | error e =>
      by_cases he : e = .help
      · subst he; exact .inl (hhelp.2 hp)
      · obtain ⟨t, -, h⟩ := fault_sound hg argv hp he
        exact .inr (.inl ⟨t, h⟩)
    | ok r =>
      obtain ⟨v, args⟩ := r
      obtain ⟨os, r, h1, h2, -⟩ := (args_ok hg argv [] _ _ _).1 hp
      exact .inr (.inr ⟨os, r, h1, fun ⟨o, ho, hd⟩ => h2 o ho hd⟩)
  · obtain ⟨e, h1, h2⟩ := fault_complete hg hf
    refine ⟨fun h => ?_, fun os args hm => ?_, fun fault' hf' => ?_⟩
    · rw [hhelp.1 h] at h1; cases h1; cases h2
    · rcases means_values hg hm with ⟨-, k⟩ | ⟨-, v, k, -⟩
      · rw [k] at h1; cases h1; cases h2
      · rw [k] at h1; cases h1
    · obtain ⟨e', h1', h2'⟩ := fault_complete hg hf'
      rw [h1] at h1'; cases h1'
      rw [h2] at h2'; cases h2'
      rfl
  · rcases means_values hg hm with ⟨h, k⟩ | ⟨h, v, k, -⟩
    · exact ⟨fun _ => h, fun _ => hhelp.2 k⟩
    · exact ⟨fun h' => absurd (k.symm.trans (hhelp.1 h')) nofun, fun h' => absurd h' h⟩

/-! ### How the runs end -/

theorem says_at_exit {opts : List Opt} (hg : GoodOpts opts) {prog usage : Str} {argv : List Str}
    {said : Option Str} {ends : Py Unit}
    (hopt : ∀ e, parseArgs opts argv = .error e →
      said = optExitText prog usage opts e ∧ ends = .error .systemExit)
    (h : ∀ v args, parseArgs opts argv = .ok (v, args) →
      ((∃ t, said = some t) ↔ ends = .error .systemExit)) : SaysAtExit opts argv said ends := by
  have hhelp : HelpFirst opts argv ↔ parseArgs opts argv = .error .help := (help_iff hg argv [] _).symm
  unfold SaysAtExit
  rw [hhelp]
  cases hp : parseArgs opts argv with
  | error e =>
    obtain ⟨h1, h2⟩ := hopt e hp
    rw [h1, h2]
    cases e <;> simp [optExitText, OptExit.message]
  | ok r =>
    obtain ⟨v, args⟩ := r
    rw [h v args hp]
    simp

theorem some_map {α β : Type} {f : α → β} {o : Option α} : (∃ t, o.map f = some t) ↔ ∃ t, o = some t := by
  cases o <;> simp

/-- The loops over files end alike. -/
theorem filesExit_ends {fs : FileSystem} {fuel : Nat} {σ : Type} {loop : List Str → σ → Py Unit}
    (hnil : ∀ st, loop [] st = .ok ())
    (herr : ∀ f files st e, deckCards fs fuel f = .error e → loop (f :: files) st = .error e)
    (hok : ∀ f files st cs, deckCards fs fuel f = .ok cs →
      ∃ st', loop (f :: files) st = loop files st') (files : List Str) (st : σ) :
    (∃ t, filesExit fs fuel files = some t) ↔ loop files st = .error .systemExit := by
  induction files generalizing st with
  | nil => rw [hnil]; exact ⟨nofun, nofun⟩
  | cons f files ih =>
    rw [filesExit]
    rcases deckExit_end fs fuel f with ⟨cs, e1, e2⟩ | ⟨t, e1, e2⟩ | ⟨e, e1, e3, e2⟩
    · rw [e1]
      obtain ⟨st', h⟩ := hok f files st cs e1
      rw [h]
      exact ih st'
    · rw [e1, herr f files st _ e1]
      simp only
      rw [e2]
      exact ⟨fun _ => by trivial, fun _ => ⟨t, rfl⟩⟩
    · rw [e1, herr f files st _ e1]
      simp only
      rw [e2]
      exact ⟨nofun, fun h => absurd (by cases h; rfl) e3⟩

theorem freqLinesRun_exit (opts : CheckOpts) (n : Nat) (d : Dict Str Nat) :
    (freqLinesRun opts n d).2 ≠ .error .systemExit := by
  induction d with
  | nil => rw [freqLinesRun]; exact nofun
  | cons p d ih =>
    obtain ⟨i, k⟩ := p
    rw [freqLinesRun]
    split
    · split
      · exact nofun
      · exact ih
    · exact ih

/-- C180: check-instructions. -/
theorem C180_ends_check (prog : Str) (fs : FileSystem) (m : Nat) (argv : List Str) :
    SaysAtExit CHECK_INSTRUCTIONS_OPTS argv (checkInstructionsExit prog fs m argv)
      (checkInstructionsCmd fs m argv).2 := by
  refine says_at_exit C153_good.1 (prog := prog) (usage := FILES_USAGE) ?_ fun v args e => ?_
  · intro e he
    unfold checkInstructionsExit checkInstructionsCmd
    rw [he]
    exact ⟨rfl, rfl⟩
  unfold checkInstructionsExit checkInstructionsCmd
  rw [e]
  simp only
  rw [(C151_check _ _ _ _ _).2.1]
  unfold checkRun
  by_cases hl : args.length < 1
  · rw [if_pos hl, if_pos hl]
    simp
  · rw [if_neg hl, if_neg hl, some_map]
    generalize (⟨_, _, _, _, _, _⟩ : CheckOpts) = opts
    rw [filesExit_ends (loop := fun files st => (checkFilesRun fs m opts files st).2) (fun _ => rfl)
      (fun f files st e h => by simp only [checkFilesRun, h])
      (fun f files st cs h => ⟨cs.foldl (checkStep opts) st, by simp only [checkFilesRun, h]⟩) args
      CheckState.init]
    cases hr : checkFilesRun fs m opts args CheckState.init with
    | mk st r =>
      cases r with
      | error e => simp only
      | ok _ =>
        simp only
        refine ⟨nofun, fun h => ?_⟩
        split at h
        · split at h
          · rename_i hf
            have := freqLinesRun_exit opts st.instrcount
              (if opts.sort then freqtab st.instrtab else byName st.instrtab)
            rw [hf] at this
            exact absurd h this
          · cases h
        · cases h

/-- C180: list-instructions. -/
theorem C180_ends_list (prog : Str) (fs : FileSystem) (m : Nat) (argv : List Str) :
    SaysAtExit LIST_INSTRUCTIONS_OPTS argv (listInstructionsExit prog fs m argv)
      (listInstructionsCmd fs m argv).2 := by
  refine says_at_exit C153_good.2.2.2.1 (prog := prog) (usage := LIST_USAGE) ?_ fun v args e => ?_
  · intro e he
    unfold listInstructionsExit listInstructionsCmd
    rw [he]
    exact ⟨rfl, rfl⟩
  unfold listInstructionsExit listInstructionsCmd
  rw [e]
  cases args with
  | nil =>
    simp only
    rw [(C151_list _ _ _ _ _).2.1]
    simp [listRun]
  | cons opcode files =>
    simp only
    rw [(C151_list _ _ _ _ _).2.1]
    unfold listRun
    simp only
    generalize hc : (if opcode.contains ',' = true then splitFirst opcode ',' else opcode) = c
    by_cases hi : INSTRUCTIONS.contains c = true
    · rw [if_neg (not_not.2 hi), if_neg (not_not.2 hi), some_map]
      exact filesExit_ends (loop := fun files (_ : Unit) =>
        (listFilesRun fs m (optValue v (py "details")) opcode files).2) (fun _ => rfl)
        (fun f files st e h => by simp only [listFilesRun, h])
        (fun f files st cs h => ⟨(), by simp only [listFilesRun, h]⟩) files ()
    · rw [if_pos hi, if_pos hi]
      simp

/-- C180: listing. -/
theorem C180_ends_listing (prog : Str) (fs : FileSystem) (m : Nat) (argv : List Str) :
    SaysAtExit VERBOSE_OPTS argv (listingExitText prog fs m argv) (listingCmd fs m argv).2.2 := by
  refine says_at_exit C153_good.2.2.2.2.1 (prog := prog) (usage := FILES_USAGE) ?_ fun v args e => ?_
  · intro e he
    unfold listingExitText listingCmd
    rw [he]
    exact ⟨rfl, rfl⟩
  unfold listingExitText listingCmd
  rw [e]
  simp only
  rw [(C151_listing _ _ _ _).2.1]
  unfold listingMain
  by_cases hl : args.length < 1
  · rw [if_pos hl, if_pos hl]
    simp
  rw [if_neg hl, if_neg hl, some_map]
  clear hl e
  induction args generalizing fs with
  | nil => exact ⟨nofun, nofun⟩
  | cons f args ih =>
    rw [listingExit, listingFiles]
    rcases deckExit_end fs m f with ⟨cs, e1, e2⟩ | ⟨t, e1, e2⟩ | ⟨e, e1, e3, e2⟩
    · rw [e1]
      exact ih _
    · rw [e1]
      simp only
      rw [e2]
      exact ⟨fun _ => by trivial, fun _ => ⟨t, rfl⟩⟩
    · rw [e1]
      simp only
      rw [e2]
      exact ⟨nofun, fun h => absurd (by cases h; rfl) e3⟩

theorem buildFilesRun_exit (upper : Str → Str) {fs : FileSystem} {m : Nat} (announce : Bool)
    {files : List Str} (hp : ∀ f ∈ files, PlainSeg (splitFirst f '.')) {t : Symtab} (ht : Plain4 t)
    (k : Nat) : (∃ t, filesExit fs m files = some t) ↔
      (buildFilesRun upper fs m announce files t k).2.2.2 = .error .systemExit := by
  induction files generalizing t k with
  | nil => exact ⟨nofun, nofun⟩
  | cons f files ih =>
    rw [filesExit, buildFilesRun]
    rcases deckExit_end fs m f with ⟨cs, e1, e2⟩ | ⟨x, e1, e2⟩ | ⟨e, e1, e3, e2⟩
    · obtain ⟨-, out, -, rfl⟩ := deckCards_ok e1
      obtain ⟨h1, -, h3⟩ := buildRun_pure upper (hp f List.mem_cons_self) ht e1
      rw [e1, h1]
      exact ih (fun g hg => hp g (List.mem_cons_of_mem _ hg)) h3 _
    · have : buildRun upper fs m f t = (⟨t, py "1", 0, []⟩, .error .systemExit) := by
        unfold buildRun; rw [e1]
      rw [e1, this]
      simp only
      rw [e2]
      exact ⟨fun _ => by trivial, fun _ => ⟨x, rfl⟩⟩
    · have : buildRun upper fs m f t = (⟨t, py "1", 0, []⟩, .error e) := by
        unfold buildRun; rw [e1]
      rw [e1, this]
      simp only
      rw [e2]
      exact ⟨nofun, fun h => absurd (by cases h; rfl) e3⟩

/-- C180: check-symbols. -/
theorem C180_ends_check_symbols (prog : Str) (upper : Str → Str)
    (extract : Str → List Str → Nat → List Str) (fs : FileSystem) (m : Nat) (argv : List Str)
    (hp : ∀ os args, Means CHECK_SYMBOLS_OPTS argv os args → PlainFiles args) :
    SaysAtExit CHECK_SYMBOLS_OPTS argv (checkSymbolsExit prog upper fs m argv)
      (checkSymbolsCmd upper extract fs m argv).2 := by
  refine says_at_exit C153_good.2.1 (prog := prog) (usage := FILES_USAGE) ?_ fun v args e => ?_
  · intro e he
    unfold checkSymbolsExit checkSymbolsCmd
    rw [he]
    exact ⟨rfl, rfl⟩
  obtain ⟨os, r, h1, -, h2, -⟩ := (args_ok C153_good.2.1 argv [] _ _ _).1 e
  rw [List.nil_append] at h2
  subst h2
  have hp := plainFiles_iff.1 (hp _ _ h1)
  unfold checkSymbolsExit checkSymbolsCmd
  rw [e]
  simp only
  rw [(C151_check_symbols _ _ _ _ _ _ _).2.1]
  unfold checkSymbolsRun
  by_cases hl : args.length < 1
  · rw [if_pos hl, if_pos hl]
    simp
  rw [if_neg hl, if_neg hl, some_map, symFilesExit_eq hp plain4_nil,
    buildFilesRun_exit upper true hp plain4_nil 0]
  rcases buildFilesRun upper fs m true args [] 0 with ⟨out, t, n, _ | _⟩
  · simp only
  · exact ⟨nofun, nofun⟩

theorem mapM_exit {α β : Type} {f : α → Py β} (h : ∀ a, f a ≠ .error .systemExit) (l : List α) :
    l.mapM f ≠ .error .systemExit := by
  induction l with
  | nil => exact nofun
  | cons a l ih =>
    rw [List.mapM_cons]
    intro he
    cases ha : f a with
    | error e => rw [ha] at he; cases he; exact h a ha
    | ok b =>
      cases hl : l.mapM f with
      | error e => rw [ha, hl] at he; cases he; exact ih hl
      | ok bs => rw [ha, hl] at he; cases he

theorem bind_exit {α β : Type} {x : Py α} {f : α → Py β} (hx : x ≠ .error .systemExit)
    (h : ∀ a, f a ≠ .error .systemExit) : (x >>= f) ≠ .error .systemExit := by
  cases x with
  | error e => intro he; cases he; exact hx rfl
  | ok a => exact h a

theorem dgetE_exit {κ ν : Type} [DecidableEq κ] (d : Dict κ ν) (k : κ) :
    dgetE d k ≠ .error .systemExit := by
  unfold dgetE
  split <;> exact nofun

theorem tableLines_exit (t : Symtab) : tableLines t ≠ .error .systemExit := by
  refine bind_exit (mapM_exit (fun k => bind_exit (dgetE_exit t k) fun segs => bind_exit ?_ nofun) _) nofun
  refine bind_exit (mapM_exit (fun k => bind_exit (dgetE_exit segs k) fun subs => bind_exit ?_ nofun) _) nofun
  refine bind_exit (mapM_exit (fun k => bind_exit (dgetE_exit subs k) fun ks => bind_exit ?_ nofun) _) nofun
  refine mapM_exit (fun k => bind_exit (dgetE_exit ks k) fun e => ?_) _
  unfold entryLine
  split <;> exact nofun

/-- C180: list-symbols. -/
theorem C180_ends_list_symbols (prog : Str) (upper : Str → Str) (fs : FileSystem) (m : Nat)
    (argv : List Str) (hp : ∀ os args, Means VERBOSE_OPTS argv os args → PlainFiles args) :
    SaysAtExit VERBOSE_OPTS argv (listSymbolsExit prog upper fs m argv)
      (listSymbolsCmd upper fs m argv).2 := by
  refine says_at_exit C153_good.2.2.2.2.1 (prog := prog) (usage := FILES_USAGE) ?_ fun v args e => ?_
  · intro e he
    unfold listSymbolsExit listSymbolsCmd
    rw [he]
    exact ⟨rfl, rfl⟩
  obtain ⟨os, r, h1, -, h2, -⟩ := (args_ok C153_good.2.2.2.2.1 argv [] _ _ _).1 e
  rw [List.nil_append] at h2
  subst h2
  have hp := hp _ _ h1
  have hp' := plainFiles_iff.1 hp
  unfold listSymbolsExit listSymbolsCmd
  rw [e]
  simp only
  rw [(C151_list_symbols _ _ _ _ _).2.1]
  by_cases hl : args.length < 1
  · unfold listSymbolsRun
    rw [if_pos hl, if_pos hl]
    simp
  rw [if_neg hl, some_map, symFilesExit_eq hp' plain4_nil, buildFilesRun_exit upper false hp' plain4_nil 0]
  unfold listSymbolsRun
  rw [if_neg hl]
  rcases buildFilesRun upper fs m false args [] 0 with ⟨out, t, n, _ | _⟩
  · simp only
  · refine ⟨nofun, fun h => ?_⟩
    simp only at h
    cases hl : tableLines t with
    | error e => rw [hl] at h; cases h; exact absurd hl (tableLines_exit t)
    | ok l => rw [hl] at h; cases h

/-- C180: find-symbols. -/
theorem C180_ends_find_symbols (prog : Str) (upper : Str → Str)
    (extract : Str → List Str → Nat → List Str) (fs : FileSystem) (m : Nat) (argv : List Str)
    (hp : ∀ os args, Means FIND_SYMBOLS_OPTS argv os args → PlainFiles (args.drop 1)) :
    SaysAtExit FIND_SYMBOLS_OPTS argv (findSymbolsExit prog upper fs m argv)
      (findSymbolsCmd upper extract fs m argv).2 := by
  refine says_at_exit C153_good.2.2.1 (prog := prog) (usage := FIND_USAGE) ?_ fun v args e => ?_
  · intro e he
    unfold findSymbolsExit findSymbolsCmd
    rw [he]
    exact ⟨rfl, rfl⟩
  obtain ⟨os, r, h1, -, h2, -⟩ := (args_ok C153_good.2.2.1 argv [] _ _ _).1 e
  rw [List.nil_append] at h2
  subst h2
  have hp := plainFiles_iff.1 (hp _ _ h1)
  unfold findSymbolsExit findSymbolsCmd
  rw [e]
  simp only
  rw [(C151_find_symbols _ _ _ _ _ _ _ _ _ _).2.1]
  unfold findSymbolsRun
  split
  · simp
  rcases args with _ | ⟨a, _ | ⟨b, args⟩⟩
  · simp
  · simp
  rw [if_neg (by simp), some_map, symFilesExit_eq hp plain4_nil,
    buildFilesRun_exit upper true hp plain4_nil 0]
  rw [List.drop_one, List.tail_cons]
  simp only
  rcases buildFilesRun upper fs m true (b :: args) [] 0 with ⟨out, t, n, _ | _⟩
  · simp only
  · exact ⟨nofun, nofun⟩

theorem parseSymbolsRun_exit (upper : Str → Str) {fs : FileSystem} {m : Nat} {files : List Str}
    (hp : ∀ f ∈ files, PlainSeg (splitFirst f '.')) {t : Symtab} (ht : Plain4 t) (k : Nat)
    (errs : List Nat) : (∃ t, filesExit fs m files = some t) ↔
      (parseSymbolsRun upper fs m files t k errs).2.2 = .error .systemExit := by
  induction files generalizing t k errs with
  | nil => exact ⟨nofun, nofun⟩
  | cons f files ih =>
    rw [filesExit, parseSymbolsRun]
    rcases deckExit_end fs m f with ⟨cs, e1, e2⟩ | ⟨x, e1, e2⟩ | ⟨e, e1, e3, e2⟩
    · obtain ⟨-, out, -, rfl⟩ := deckCards_ok e1
      obtain ⟨-, h2, h3⟩ := buildRun_pure upper (hp f List.mem_cons_self) ht e1
      rw [e1, h2]
      exact ih (fun g hg => hp g (List.mem_cons_of_mem _ hg)) h3 _ _
    · have : buildSymbolTable upper fs m f t = .error .systemExit := by
        unfold buildSymbolTable; rw [e1]; rfl
      rw [e1, this]
      simp only
      rw [e2]
      exact ⟨fun _ => by trivial, fun _ => ⟨x, rfl⟩⟩
    · have : buildSymbolTable upper fs m f t = .error e := by
        unfold buildSymbolTable; rw [e1]; rfl
      rw [e1, this]
      simp only
      rw [e2]
      exact ⟨nofun, fun h => absurd (by cases h; rfl) e3⟩

/-- C180: parse. -/
theorem C180_ends_parse (prog : Str) (upper : Str → Str) (fs : FileSystem) (m : Nat) (argv : List Str)
    (hp : ∀ os args, Means PARSE_OPTS argv os args → PlainFiles args) :
    SaysAtExit PARSE_OPTS argv (parseExit prog upper fs m argv) (parseCmd upper fs m argv).2 := by
  refine says_at_exit C153_good.2.2.2.2.2.1 (prog := prog) (usage := FILES_USAGE) ?_ fun v args e => ?_
  · intro e he
    unfold parseExit parseCmd
    rw [he]
    exact ⟨rfl, rfl⟩
  obtain ⟨os, r, h1, -, h2, -⟩ := (args_ok C153_good.2.2.2.2.2.1 argv [] _ _ _).1 e
  rw [List.nil_append] at h2
  subst h2
  have hp := plainFiles_iff.1 (hp _ _ h1)
  unfold parseExit parseCmd
  rw [e]
  simp only
  generalize optValue v (py "verbose") = vb
  generalize optValue v (py "debug") = debug
  obtain ⟨syms, checks, -, -, h3⟩ := C151_parse vb upper fs m debug args
  replace h3 := congrArg Prod.snd h3
  simp only at h3
  rw [← h3]
  unfold parseRun
  by_cases hl : args.length < 1
  · rw [if_pos hl, if_pos hl]
    simp
  rw [if_neg hl, if_neg hl]
  have h := parseSymbolsRun_exit upper (fs := fs) (m := m) hp plain4_nil 0 []
  generalize parseSymbolsRun upper fs m args [] 0 [] = r at h ⊢
  rcases r with ⟨k, errs, _ | _⟩
  · simp only
    rw [some_map, symFilesExit_eq hp plain4_nil]
    exact h
  · simp only
    rw [some_map, filesExit_ends (loop := fun files st => (parseDecksRun fs m debug files st).2)
      (fun _ => rfl) (fun f files st e h => by simp only [parseDecksRun, h])
      (fun f files st cs h => ⟨cs.foldl (parseStepRun debug) st, by simp only [parseDecksRun, h]⟩) args
      (0, k, [])]
    rcases parseDecksRun fs m debug args (0, k, []) with ⟨⟨_, _, _⟩, _ | _⟩
    · simp only
    · exact ⟨nofun, nofun⟩

theorem pyInt_exit (s : Str) : pyInt s ≠ .error .systemExit := by
  unfold pyInt
  split <;> split <;> exact nofun

theorem intArg_exit (args : List Str) (i : Nat) (d : Int) : intArg args i d ≠ .error .systemExit := by
  unfold intArg
  split
  · exact nofun
  · exact pyInt_exit _

theorem pyRangeStep_exit (a b c : Int) : pyRangeStep a b c ≠ .error .systemExit := by
  unfold pyRangeStep
  split <;> exact nofun

/-- C180: genlines. -/
theorem C180_ends_genlines (prog : Str) (argv : List Str) :
    SaysAtExit NO_OPTS argv (genlinesExit prog argv) ((genlinesCmd argv).map fun _ => ()) := by
  refine says_at_exit C153_good.2.2.2.2.2.2 (prog := prog) (usage := GENLINES_USAGE) ?_ fun v args e => ?_
  · intro e he
    unfold genlinesExit genlinesCmd
    rw [he]
    exact ⟨rfl, rfl⟩
  have hm : ∀ x : Py (List Str), (x.map fun _ => ()) = .error .systemExit ↔ x = .error .systemExit := by
    intro x; cases x <;> simp [Except.map]
  rw [hm]
  unfold genlinesExit genlinesCmd
  rw [e]
  rcases args with _ | ⟨a0, _ | ⟨a1, rest⟩⟩
  · simp [genlines]
  · simp [genlines]
  simp only [genlines]
  split
  · simp
  split
  · simp
  cases h0 : pyInt a0 with
  | error e =>
    have := pyInt_exit a0
    rw [h0] at this
    simpa [py_bind_error] using this
  | ok start =>
    rw [py_bind_ok]
    cases h1 : pyInt a1 with
    | error e =>
      have := pyInt_exit a1
      rw [h1] at this
      simpa [py_bind_error] using this
    | ok end_ =>
      rw [py_bind_ok]
      simp only
      split
      · simp
      · refine ⟨nofun, fun h => absurd h ?_⟩
        exact bind_exit (intArg_exit _ _ _) fun _ => bind_exit (intArg_exit _ _ _) fun _ =>
          bind_exit (intArg_exit _ _ _) fun _ => bind_exit (pyRangeStep_exit _ _ _) nofun

/-- C180: genpages. -/
theorem C180_ends_genpages (prog : Str) (fs : FileSystem) (fuel : Nat) (argv : List Str) :
    SaysAtExit NO_OPTS argv (genpagesExit prog fs fuel argv) (genpagesCmd fs fuel argv).2 := by
  refine says_at_exit C153_good.2.2.2.2.2.2 (prog := prog) (usage := GENPAGES_USAGE) ?_ fun v args e => ?_
  · intro e he
    unfold genpagesExit genpagesCmd
    rw [he]
    exact ⟨rfl, rfl⟩
  unfold genpagesExit genpagesCmd
  rw [e]
  cases args with
  | nil => simp [genpages]
  | cons file rest =>
    simp only [genpages]
    cases fs file with
    | none => simp
    | some text =>
      simp only
      rcases pagesInfo_cases fs fuel (readlines text) with ⟨-, e, h1, h2⟩ | ⟨-, sec, c8, p, h1, -, -⟩
      · rw [h1]
        rcases h2 with rfl | rfl <;> simp
      · rw [h1]
        cases sec with
        | none => simp
        | some sec =>
          rcases p with _ | ⟨a, b⟩
          · simp
          · simp only
            split <;> simp

/-! ### The name of the program -/

/-- The nine tools: what they say when they end themselves. -/
def toolsSay : List (Str → (Str → Str) → FileSystem → Nat → List Str → Option Str) :=
  [fun prog _ => checkInstructionsExit prog, checkSymbolsExit, findSymbolsExit,
   fun prog _ _ _ => genlinesExit prog, fun prog _ => genpagesExit prog,
   fun prog _ => listInstructionsExit prog, listSymbolsExit, fun prog _ => listingExitText prog, parseExit]

/-- C181, the full statement: where `%prog` is written for the name of the program the name is put; so
there is no percent sign in what is said about a command line, unless there is one in it. -/
def C181_statement : Prop :=
  ∀ said ∈ toolsSay, ∀ prog upper fs fuel argv t, (∀ f, fs f ≠ none) → '%' ∉ prog →
    (∀ w ∈ argv, '%' ∉ w) → said prog upper fs fuel argv = some t → '%' ∉ t

/-- C181 is false: the messages about missing arguments are not expanded. -/
theorem C181_refuted : ¬ C181_statement := by
  intro h
  refine h _ (List.mem_cons_self ..) (py "x") id (fun _ => some []) 0 [] _ (fun _ => nofun) (by decide)
    nofun rfl (by decide +kernel)

theorem deckExit_full {fs : FileSystem} (h : ∀ f, fs f ≠ none) (fuel : Nat) (f : Str) :
    deckExit fs fuel f = none := by
  cases hd : deckExit fs fuel f with
  | none => rfl
  | some t =>
    rcases (deckExit_sound hd).2 with ⟨h1, -⟩ | ⟨text, g, -, h1, -⟩
    · exact absurd h1 (h f)
    · exact absurd (meetsGap_missing h1) (h g)

theorem filesExit_full {fs : FileSystem} (h : ∀ f, fs f ≠ none) (fuel : Nat) (files : List Str) :
    filesExit fs fuel files = none := by
  induction files with
  | nil => rfl
  | cons f files ih =>
    rw [filesExit]
    split
    · exact deckExit_full h fuel f
    · exact ih

theorem symFilesExit_full {upper : Str → Str} {fs : FileSystem} (h : ∀ f, fs f ≠ none) (fuel : Nat)
    (files : List Str) (t : Symtab) : symFilesExit upper fs fuel files t = none := by
  induction files generalizing t with
  | nil => rfl
  | cons f files ih =>
    rw [symFilesExit]
    split
    · exact deckExit_full h fuel f
    · exact ih _

theorem listingExit_full {fs : FileSystem} (h : ∀ f, fs f ≠ none) (fuel : Nat) (files : List Str) :
    listingExit fuel fs files = none := by
  induction files generalizing fs with
  | nil => rfl
  | cons f files ih =>
    rw [listingExit]
    split
    · exact deckExit_full h fuel f
    · refine ih fun g => ?_
      unfold writeFile
      split
      · exact nofun
      · exact h g

theorem before_mem {c d : Char} {s p : Str} (h : BeforeFirst c s p) (hd : d ∈ p) : d ∈ s := by
  rcases h with ⟨-, rfl | ⟨r, rfl⟩⟩
  · exact hd
  · exact List.mem_append_left _ hd

theorem intercalate_mem {c : Char} {sep : Str} {l : List Str} (h : c ∈ List.intercalate sep l) :
    c ∈ sep ∨ ∃ x ∈ l, c ∈ x := by
  rw [← joinText_sep] at h
  match l with
  | [] => cases h
  | [x] => exact .inr ⟨x, List.mem_cons_self, h⟩
  | x :: y :: l =>
    rw [joinText, List.mem_append, List.mem_append, joinText_sep] at h
    rcases h with (h | h) | h
    · exact .inr ⟨x, List.mem_cons_self, h⟩
    · exact .inl h
    · rcases intercalate_mem h with h | ⟨z, hz, h⟩
      · exact .inl h
      · exact .inr ⟨z, List.mem_cons_of_mem _ hz, h⟩

theorem fault_clean {opts : List Opt} (ho : ∀ o ∈ opts, '%' ∉ o.long) {w fault : Str} (hw : '%' ∉ w)
    (h : WordFault opts w fault) : '%' ∉ fault := by
  cases h with
  | letter _ _ _ _ =>
    simp only [List.mem_append, List.mem_cons, not_or] at hw ⊢
    exact ⟨by decide, hw.2.1, by simp⟩
  | unknown hb _ _ =>
    simp only [List.mem_append, not_or]
    exact ⟨by decide, fun h => hw (before_mem hb h)⟩
  | ambiguous hb _ _ _ _ _ _ _ _ hn _ =>
    simp only [List.mem_append, not_or]
    refine ⟨⟨⟨⟨by decide, fun h => hw (before_mem hb h)⟩, by decide⟩, fun h => ?_⟩, by decide⟩
    rcases intercalate_mem h with h | ⟨x, hx, h⟩
    · exact absurd h (by decide)
    · obtain ⟨-, o, h1, rfl⟩ := (hn x).1 hx
      exact ho o h1 h
  | value _ _ hn =>
    simp only [List.mem_append, not_or]
    exact ⟨ho _ hn.1, by decide⟩

theorem usage_clean {prog synopsis fault : Str} (hp : '%' ∉ prog) (hs : '%' ∉ synopsis)
    (hf : '%' ∉ fault) : '%' ∉ usageError prog synopsis fault := by
  simp only [usageError, List.mem_append, not_or]
  exact ⟨⟨⟨⟨⟨⟨⟨⟨by decide, hp⟩, by decide⟩, hs⟩, by decide⟩, hp⟩, by decide⟩, hf⟩, by decide⟩

theorem opt_clean {opts : List Opt} (hg : GoodOpts opts) (ho : ∀ o ∈ opts, '%' ∉ o.long)
    {prog usage synopsis : Str} (hu : ∀ fault, errorText prog usage fault = usageError prog synopsis fault)
    (hp : '%' ∉ prog) (hs : '%' ∉ synopsis) {argv : List Str} (ha : ∀ w ∈ argv, '%' ∉ w) {e : OptExit}
    (he : parseArgs opts argv = .error e) {t : Str} (ht : optExitText prog usage opts e = some t) :
    '%' ∉ t := by
  by_cases h : e = .help
  · subst h; cases ht
  · obtain ⟨fault, h1, pre, w, post, _, _, rfl, -, -, -, hw⟩ := fault_sound hg argv he h
    unfold optExitText at ht
    rw [h1] at ht
    cases ht
    rw [hu]
    exact usage_clean hp hs (fault_clean ho (ha w (by simp)) hw)

/-- C181, what holds: there is a percent sign only in the messages about missing arguments, which are
these. -/
theorem C181_prog_partial : ∀ said ∈ toolsSay, ∀ prog upper fs fuel argv t, (∀ f, fs f ≠ none) →
    '%' ∉ prog → (∀ w ∈ argv, '%' ∉ w) → said prog upper fs fuel argv = some t → '%' ∈ t →
    ∃ synopsis, ∃ fault ∈ [py "usage: %prog filename", py "usage: %prog filename [filename]...",
        py "usage: %prog [options] symbol filename [filename]..."],
      t = usageError prog synopsis fault := by
  intro said hm prog upper fs fuel argv t hfs hp ha ht hc
  simp only [toolsSay, List.mem_cons, List.not_mem_nil, or_false] at hm
  rcases hm with rfl | rfl | rfl | rfl | rfl | rfl | rfl | rfl | rfl <;> beta_reduce at ht
  · unfold checkInstructionsExit at ht
    split at ht
    · rename_i e he
      exact absurd hc (opt_clean C153_good.1 (by decide) (files_usage prog) hp (by decide) ha he ht)
    · split at ht
      · cases ht; exact ⟨_, _, by simp, files_usage ..⟩
      · rw [filesExit_full hfs] at ht; cases ht
  · unfold checkSymbolsExit at ht
    split at ht
    · rename_i e he
      exact absurd hc (opt_clean C153_good.2.1 (by decide) (files_usage prog) hp (by decide) ha he ht)
    · split at ht
      · cases ht; exact ⟨_, _, by simp, files_usage ..⟩
      · rw [symFilesExit_full hfs] at ht; cases ht
  · unfold findSymbolsExit at ht
    split at ht
    · rename_i e he
      exact absurd hc (opt_clean C153_good.2.2.1 (by decide) (find_usage prog) hp (by decide) ha he ht)
    · simp only at ht
      split at ht
      · cases ht
        rw [find_usage] at hc
        exact absurd hc (usage_clean hp (by decide) (by decide))
      split at ht
      · cases ht; exact ⟨_, _, by simp, find_usage ..⟩
      · rw [symFilesExit_full hfs] at ht; cases ht
  · unfold genlinesExit at ht
    split at ht
    · rename_i e he
      exact absurd hc (opt_clean C153_good.2.2.2.2.2.2 (by decide) (genlines_usage prog) hp (by decide) ha
        he ht)
    · have : t = errorText prog GENLINES_USAGE (py "Number of digits cannot be greater than 6!") := by
        simp only at ht
        split at ht
        · cases ht; rfl
        split at ht
        · cases ht; rfl
        split at ht
        · cases ht
        split at ht
        · cases ht
        split at ht
        · cases ht; rfl
        · cases ht
      subst this
      rw [genlines_usage] at hc
      exact absurd hc (usage_clean hp (by decide) (by decide))
    · cases ht
      rw [genlines_usage] at hc
      exact absurd hc (usage_clean hp (by decide) (by decide))
  · unfold genpagesExit at ht
    split at ht
    · rename_i e he
      exact absurd hc (opt_clean C153_good.2.2.2.2.2.2 (by decide) (genpages_usage prog) hp (by decide) ha
        he ht)
    · cases ht; exact ⟨_, _, by simp, genpages_usage ..⟩
    · split at ht
      · rename_i h; exact absurd h (hfs _)
      split at ht
      · cases ht
      split at ht
      · cases ht
        rw [genpages_usage] at hc
        exact absurd hc (usage_clean hp (by decide) (by decide))
      · cases ht
      · split at ht
        · cases ht
          rw [genpages_usage] at hc
          exact absurd hc (usage_clean hp (by decide) (by decide))
        · cases ht
  · unfold listInstructionsExit at ht
    split at ht
    · rename_i e he
      exact absurd hc (opt_clean C153_good.2.2.2.1 (by decide) (list_usage prog) hp (by decide) ha he ht)
    · cases ht; exact ⟨_, _, by simp, list_usage ..⟩
    · rename_i v opcode files he
      simp only at ht
      generalize (if opcode.contains ',' = true then splitFirst opcode ',' else opcode) = c at ht
      split at ht
      · cases ht
        rw [list_usage] at hc
        refine absurd hc (usage_clean hp (by decide) ?_)
        obtain ⟨os, r, h1, -, h2, -⟩ := (args_ok C153_good.2.2.2.1 argv [] _ _ _).1 he
        rw [List.nil_append] at h2
        have := ha opcode (means_args h1 opcode (by rw [← h2]; simp))
        simp only [List.mem_append, not_or]
        exact ⟨⟨by decide, this⟩, by decide⟩
      · rw [filesExit_full hfs] at ht; cases ht
  · unfold listSymbolsExit at ht
    split at ht
    · rename_i e he
      exact absurd hc (opt_clean C153_good.2.2.2.2.1 (by decide) (files_usage prog) hp (by decide) ha he ht)
    · split at ht
      · cases ht; exact ⟨_, _, by simp, files_usage ..⟩
      · rw [symFilesExit_full hfs] at ht; cases ht
  · unfold listingExitText at ht
    split at ht
    · rename_i e he
      exact absurd hc (opt_clean C153_good.2.2.2.2.1 (by decide) (files_usage prog) hp (by decide) ha he ht)
    · split at ht
      · cases ht; exact ⟨_, _, by simp, files_usage ..⟩
      · rw [listingExit_full hfs] at ht; cases ht
  · unfold parseExit at ht
    split at ht
    · rename_i e he
      exact absurd hc (opt_clean C153_good.2.2.2.2.2.1 (by decide) (files_usage prog) hp (by decide) ha he
        ht)
    · split at ht
      · cases ht; exact ⟨_, _, by simp, files_usage ..⟩
      · split at ht
        · rw [symFilesExit_full hfs] at ht; cases ht
        · rw [filesExit_full hfs] at ht; cases ht

/-! ### Examples -/

/-- A file that includes another, which includes one that does not exist; and a log section with pages in
the wrong order. -/
def gapFs : FileSystem := fun f =>
  if f = py "A.arg" then some (py "# top\n$B.arg\n")
  else if f = py "B.arg" then some (py "                   TN\n$C.arg\n")
  else if f = py "P.arg" then some (py "# Pages: 9-7\nL      @SECTION\n")
  else none

example : MeetsGap gapFs (readlines (py "# top\n$B.arg\n")) (py "C.arg") := by
  rcases (deckExit_sound (show deckExit gapFs 5 (py "A.arg") =
    some (py "File \"C.arg\" does not exist") by decide +kernel)).2 with ⟨h, -⟩ | ⟨text, g, h1, h2, h3⟩
  · exact absurd h (by decide +kernel)
  · have : some text = some (py "# top\n$B.arg\n") := h1.symm.trans (by decide +kernel)
    cases this
    have : g = py "C.arg" := by
      have h3 : py "File \"" ++ py "C.arg" ++ py "\" does not exist" =
        py "File \"" ++ g ++ py "\" does not exist" := h3
      exact (List.append_cancel_left (List.append_cancel_right h3)).symm
    rwa [this] at h2

example : checkInstructionsExit (py "check") gapFs 5 [py "A.arg"] =
    some (py "File \"C.arg\" does not exist\n") ∧
    (checkInstructionsCmd gapFs 5 [py "A.arg"]).2 = .error .systemExit ∧
    ¬ HelpFirst CHECK_INSTRUCTIONS_OPTS [py "A.arg"] := by
  have h : checkInstructionsExit (py "check") gapFs 5 [py "A.arg"] =
    some (py "File \"C.arg\" does not exist\n") := by decide +kernel
  have := (C180_ends_check (py "check") gapFs 5 [py "A.arg"]).1 ⟨_, h⟩
  exact ⟨h, this.2, this.1⟩

example : listInstructionsExit (py "list") gapFs 5 [py "TN", py "Z.arg"] =
    some (py "ERROR: File \"Z.arg\" does not exist!\n") := by decide +kernel

example : listInstructionsExit (py "list") gapFs 5 [py "ZZ,1", py "Z.arg"] =
    some (py "Usage: list opcode filename [filename]...\n\nlist: error: ERROR: invalid opcode \"ZZ,1\"\n") := by
  decide +kernel

example : findSymbolsExit (py "find") id gapFs 5 [py "--ex", py "-qe"] =
    some (py "Usage: find [options] symbol filename [filename]...\n\nfind: error: no such option: -q\n") := by
  decide +kernel

example : findSymbolsExit (py "find") id gapFs 5 [py "--e=1"] =
    some (py "Usage: find [options] symbol filename [filename]...\n\nfind: error: ambiguous option: --e (--end, --exact?)\n") := by
  decide +kernel

example : NotUnderstood FIND_SYMBOLS_OPTS [py "A.arg", py "--exact=1"]
    (py "--exact option does not take a value") := by
  obtain ⟨t, h1, h2⟩ := fault_sound C153_good.2.2.1 [py "A.arg", py "--exact=1"] (largs := [])
    (v := defaultValues FIND_SYMBOLS_OPTS) (e := .noValue (py "--exact")) (by decide +kernel) nofun
  cases h1
  exact h2

example : genpagesExit (py "pages") gapFs 5 [py "P.arg"] =
    some (py "Usage: pages filename\n\npages: error: Invalid page numbers!\n") := by decide +kernel

example : genpagesExit (py "pages") gapFs 5 [py "B.arg"] =
    some (py "Usage: pages filename\n\npages: error: Cannot determine log section!\n") := by decide +kernel

example : genlinesExit (py "lines") [py "1", py "1000000"] =
    some (py "Usage: lines start end [step] [startcol] [endcol]\n\nlines: error: Number of digits cannot be greater than 6!\n") := by
  decide +kernel

end H800
