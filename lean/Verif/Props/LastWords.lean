import Verif.Lemmas.LastWords
import Verif.Lemmas.LastWordsOpt
import Verif.Props.Status
import Verif.Props.Pages

/-!
C179: a message that a file does not exist is true, and is about the first such file. C180: what each
tool says when it ends itself. C181: the name of the program in what is said about a command line.
-/

namespace H800

open Spec
open scoped Classical

/-- C179: if reading a source ends with a text, the text names a file that does not exist: the source
itself, or the first file met in reading that is to be included. And if there is such a file, this is
the end of it, unless the files are nested too deeply. -/
theorem C179_read (fs : FileSystem) (f : Str) :
    (∀ m t, deckExit fs m f = some t → f ≠ [] ∧ SaysMissing fs f t) ∧
    ∀ t, f ≠ [] → SaysMissing fs f t → ∃ n, ∀ m, n ≤ m → deckExit fs m f = some t :=
  ⟨fun _ _ h => deckExit_sound h, fun _ h1 h2 => deckExit_complete h1 h2⟩

/-- C179: what is said is said about a file that does not exist; there is one text at most; and there is
none if the source can be read. -/
theorem C179_missing (fs : FileSystem) (f t : Str) (h : SaysMissing fs f t) :
    (∃ g, fs g = none ∧ (t = py "ERROR: File \"" ++ g ++ py "\" does not exist!" ∨
      t = py "File \"" ++ g ++ py "\" does not exist")) ∧
    (∀ t', SaysMissing fs f t' → t' = t) ∧ ¬ ∃ src, Expands fs f src := by
  refine ⟨?_, fun t' h' => saysMissing_unique h' h, fun ⟨src, hs⟩ => saysMissing_expands h hs⟩
  rcases h with ⟨h, rfl⟩ | ⟨text, g, -, hg, rfl⟩
  · exact ⟨f, h, .inl rfl⟩
  · exact ⟨g, meetsGap_missing hg, .inr rfl⟩

/-- C179: reading a source ends with such a text exactly if it ends with SystemExit. -/
theorem C179_exit (fs : FileSystem) (m : Nat) (f : Str) :
    (∃ t, deckExit fs m f = some t) ↔ deckCards fs m f = .error .systemExit := by
  rcases deckExit_end fs m f with ⟨cs, e1, e2⟩ | ⟨t, e1, e2⟩ | ⟨e, e1, e3, e2⟩
  · rw [e1, e2]; exact ⟨nofun, nofun⟩
  · rw [e1, e2]; exact ⟨fun _ => rfl, fun _ => ⟨t, rfl⟩⟩
  · rw [e1, e2]; exact ⟨nofun, fun h => absurd (by cases h; rfl) e3⟩

/-- C175: putting one text for another, as with the name of the program, replaces every occurrence
from the left and nothing else. -/
theorem C175_replace (old new s t : Str) (h : old ≠ []) :
    t = replaceAux old new 0 s ↔ Replaced old new s t :=
  ⟨fun e => e ▸ replaced_of old new h _ s (Nat.le_refl _), replaced_eq h⟩

example : replaceAux (py "aa") (py "b") 0 (py "xaaay") = py "xbay" := by decide +kernel

/-! ### The files of a tool -/

theorem listingSays_cons {fs : FileSystem} {f : Str} {files : List Str} {t : Str} :
    ListingSays fs (f :: files) t ↔ f ≠ [] ∧
      (SaysMissing fs f t ∨ ∃ src, Expands fs f src ∧
        ListingSays (writeFile fs (listfileOf f) ((src.map srcCard).flatMap deckLine)) files t) := by
  constructor
  · rintro ⟨pre, g, post, fs', e, h0, h1, h2, h3⟩
    cases pre with
    | nil =>
      cases e
      cases h1
      exact ⟨h2, .inl h3⟩
    | cons a pre =>
      cases e
      have hf := h0 f List.mem_cons_self
      cases h1 with
      | @cons _ fs1 _ _ _ out name ls k1 k2 k3 k4 k5 k6 =>
        obtain ⟨n, hn⟩ := listed_runs (.cons k1 k2 k3 k4 k5 (.nil fs1)) (by simpa using hf)
        obtain ⟨n', hn'⟩ := deckCards_complete hf k1
        have := hn (max n n') (by omega)
        rw [listingFiles, hn' (max n n') (by omega)] at this
        simp only [listingFiles] at this
        cases this
        exact ⟨hf, .inr ⟨out, k1, pre, g, post, fs', rfl,
          fun x hx => h0 x (List.mem_cons_of_mem _ hx), k6, h2, h3⟩⟩
  · rintro ⟨h1, h2 | ⟨src, h2, pre, g, post, fs', rfl, h0, h3, h4, h5⟩⟩
    · exact ⟨[], f, files, fs, rfl, (fun x hx => nomatch hx), .nil _, h1, h2⟩
    · obtain ⟨ls, k1, k2⟩ := deckLines_spec src
      refine ⟨f :: pre, g, post, fs', rfl, ?_, .cons h2 (listfileOf_spec f) k1 ?_ ?_ h3, h4, h5⟩
      · intro x hx
        rcases List.mem_cons.1 hx with rfl | hx
        · exact h1
        · exact h0 x hx
      · unfold writeFile
        rw [if_pos rfl, k2]
      · intro g hg
        unfold writeFile
        rw [if_neg hg]

theorem listingExit_iff (fs : FileSystem) (files : List Str) :
    ∃ n, ∀ m, n ≤ m → ∀ t, listingExit m fs files = some t ↔ ListingSays fs files t := by
  induction files generalizing fs with
  | nil =>
    refine ⟨0, fun m _ t => ⟨nofun, ?_⟩⟩
    rintro ⟨pre, f, post, fs', h, -⟩
    cases pre <;> cases h
  | cons f files ih =>
    rcases deck_ways fs f with ⟨k, src, h1, h2, h3⟩ | ⟨k, t, h1, h2, h3⟩ | ⟨h1, h2, h3⟩
    · obtain ⟨n, hn⟩ := ih (writeFile fs (listfileOf f) ((src.map srcCard).flatMap deckLine))
      refine ⟨max n k, fun m hm t => ?_⟩
      rw [listingExit, h3 m (by omega), listingSays_cons]
      simp only
      rw [hn m (by omega)]
      constructor
      · exact fun h => ⟨h1, .inr ⟨src, h2, h⟩⟩
      · rintro ⟨-, h | ⟨src', h4, h5⟩⟩
        · exact (saysMissing_expands h h2).elim
        · rw [expands_unique h2 h4]; exact h5
    · refine ⟨k, fun m hm t' => ?_⟩
      rw [listingExit, (h3 m hm).1, listingSays_cons]
      simp only
      rw [(h3 m hm).2]
      constructor
      · rintro ⟨⟩; exact ⟨h1, .inl h2⟩
      · rintro ⟨-, h | ⟨src, h, -⟩⟩
        · rw [saysMissing_unique h2 h]
        · exact (saysMissing_expands h2 h).elim
    · refine ⟨0, fun m _ t => ?_⟩
      obtain ⟨⟨e, he⟩, hx⟩ := h3 m
      rw [listingExit, he, listingSays_cons]
      simp only
      rw [hx]
      refine ⟨nofun, ?_⟩
      rintro ⟨h4, h | ⟨src, h, -⟩⟩
      · exact absurd ⟨h4, h⟩ (h1 t)
      · exact absurd ⟨h4, h⟩ (h2 src)

/-! ### What the tools say -/

/-- What a tool says, from what it does with options and arguments. -/
theorem tool_says {opts : List Opt} (hg : GoodOpts opts) {prog usage synopsis : Str}
    (hu : ∀ fault, errorText prog usage fault = usageError prog synopsis fault)
    {misuse stops : List Opt → List Str → Str → Prop} {argv : List Str} {said : Nat → Option Str}
    (hopt : ∀ m e, parseArgs opts argv = .error e → said m = optExitText prog usage opts e)
    (h : ∀ os args, Means opts argv os args → (¬ ∃ o ∈ os, o.dest = none) →
      (∀ fault, misuse os args fault → ∀ m, said m = some (errorText prog usage fault)) ∧
      ((∀ fault, ¬ misuse os args fault) →
        ∃ n, ∀ m, n ≤ m → ∀ t, said m = some t ↔ ∃ s, stops os args s ∧ t = s ++ ['\n'])) :
    ∃ n, ∀ m, n ≤ m → SaysIs opts prog synopsis misuse stops argv (said m) := by
  have hhelp : HelpFirst opts argv → ∀ m, said m = none := by
    intro hh m
    rw [hopt m _ ((help_iff hg argv [] _).2 hh)]
    rfl
  have hfault : ∀ fault, NotUnderstood opts argv fault →
      ∀ m, said m = some (usageError prog synopsis fault) := by
    intro fault hf m
    obtain ⟨e, h1, h2⟩ := fault_complete hg hf
    rw [hopt m e h1, optExitText, h2, Option.map_some, hu]
  have hno : ∀ os args, Means opts argv os args → ¬ HelpFirst opts argv → ¬ ∃ o ∈ os, o.dest = none := by
    intro os args hm hh ⟨o, ho, hd⟩
    rcases means_values hg hm with ⟨-, e⟩ | ⟨e, -⟩
    · exact hh ((help_iff hg argv [] _).1 e)
    · exact e ⟨o, ho, hd⟩
  by_cases hm : ∃ os args, Means opts argv os args ∧ ¬ HelpFirst opts argv ∧
      ∀ fault, ¬ misuse os args fault
  · obtain ⟨os, args, h1, h2, h3⟩ := hm
    obtain ⟨n, hn⟩ := (h os args h1 (hno _ _ h1 h2)).2 h3
    refine ⟨n, fun m hm => ⟨fun h => hhelp h m, fun f hf => hfault f hf m, fun os' args' h1' _ => ?_⟩⟩
    obtain ⟨rfl, rfl⟩ := C153_unique hg h1 h1'
    exact ⟨fun fault h => absurd h (h3 fault), fun _ => hn m hm⟩
  · refine ⟨0, fun m _ => ⟨fun h => hhelp h m, fun f hf => hfault f hf m, fun os args h1 h2 => ?_⟩⟩
    exact ⟨fun fault h3 => by rw [(h os args h1 (hno _ _ h1 h2)).1 fault h3 m, hu],
      fun h3 => absurd ⟨os, args, h1, h2, h3⟩ hm⟩

theorem map_exit {o : Option Str} {p : Str → Prop} (h : ∀ t, o = some t ↔ p t) (t : Str) :
    o.map sysExitText = some t ↔ ∃ s, p s ∧ t = s ++ ['\n'] := by
  rw [Option.map_eq_some_iff]
  constructor
  · rintro ⟨a, h1, rfl⟩; exact ⟨a, (h a).1 h1, rfl⟩
  · rintro ⟨s, h1, rfl⟩; exact ⟨s, (h s).2 h1, rfl⟩

theorem files_usage (prog fault : Str) : errorText prog FILES_USAGE fault =
    usageError prog (py "filename [filename]...") fault := by
  simp [errorText, usageError, usageText, FILES_USAGE, hasPrefix, replaceAux]

theorem list_usage (prog fault : Str) : errorText prog LIST_USAGE fault =
    usageError prog (py "opcode filename [filename]...") fault := by
  simp [errorText, usageError, usageText, LIST_USAGE, hasPrefix, replaceAux]

theorem find_usage (prog fault : Str) : errorText prog FIND_USAGE fault =
    usageError prog (py "[options] symbol filename [filename]...") fault := by
  simp [errorText, usageError, usageText, FIND_USAGE, hasPrefix, replaceAux]

theorem genlines_usage (prog fault : Str) : errorText prog GENLINES_USAGE fault =
    usageError prog (py "start end [step] [startcol] [endcol]") fault := by
  simp [errorText, usageError, usageText, GENLINES_USAGE, hasPrefix, replaceAux]

theorem genpages_usage (prog fault : Str) : errorText prog GENPAGES_USAGE fault =
    usageError prog (py "filename") fault := by
  simp [errorText, usageError, usageText, GENPAGES_USAGE, hasPrefix, replaceAux]

/-- The tools with nothing to say about arguments but that there is none. -/
theorem files_say {opts : List Opt} (hg : GoodOpts opts) {prog : Str} {argv : List Str}
    {said : Nat → Option Str} {loop : Nat → List Str → Option Str} {tells : List Str → Str → Prop}
    (hopt : ∀ m e, parseArgs opts argv = .error e → said m = optExitText prog FILES_USAGE opts e)
    (harg : ∀ m v args, parseArgs opts argv = .ok (v, args) → said m =
      if args.length < 1 then some (errorText prog FILES_USAGE (py "usage: %prog filename"))
      else (loop m args).map sysExitText)
    (hl : ∀ os args, Means opts argv os args →
      ∃ n, ∀ m, n ≤ m → ∀ t, loop m args = some t ↔ tells args t) :
    ∃ n, ∀ m, n ≤ m → SaysIs opts prog (py "filename [filename]...") NoFile
      (fun _ args t => tells args t) argv (said m) := by
  refine tool_says hg (files_usage prog) hopt fun os args hm hh => ?_
  rcases means_values hg hm with ⟨e, -⟩ | ⟨-, v, e, -⟩
  · exact absurd e hh
  simp only [harg _ v args e]
  constructor
  · rintro fault ⟨rfl, rfl⟩ m
    rw [if_pos (by decide)]
  · intro hn
    have hlen : ¬ args.length < 1 := by
      intro h
      exact hn _ ⟨List.eq_nil_of_length_eq_zero (by omega), rfl⟩
    obtain ⟨n, hn⟩ := hl os args hm
    refine ⟨n, fun m hm t => ?_⟩
    rw [if_neg hlen]
    exact map_exit (hn m hm) t

/-- C180: check-instructions. -/
theorem C180_check (prog : Str) (fs : FileSystem) (argv : List Str) :
    ∃ n, ∀ m, n ≤ m → SaysIs CHECK_INSTRUCTIONS_OPTS prog (py "filename [filename]...") NoFile
      (fun _ args t => FilesSay fs args t) argv (checkInstructionsExit prog fs m argv) := by
  refine files_say C153_good.1 (loop := filesExit fs) ?_ ?_ fun _ args _ => filesExit_iff fs args
  · intro m e he; unfold checkInstructionsExit; rw [he]
  · intro m v args he; unfold checkInstructionsExit; rw [he]

/-- C180: listing, which finds the listings it has written itself. -/
theorem C180_listing (prog : Str) (fs : FileSystem) (argv : List Str) :
    ∃ n, ∀ m, n ≤ m → SaysIs VERBOSE_OPTS prog (py "filename [filename]...") NoFile
      (fun _ args t => ListingSays fs args t) argv (listingExitText prog fs m argv) := by
  refine files_say C153_good.2.2.2.2.1 (loop := fun m => listingExit m fs) ?_ ?_
    fun _ args _ => listingExit_iff fs args
  · intro m e he; unfold listingExitText; rw [he]
  · intro m v args he; unfold listingExitText; rw [he]

theorem symFilesExit_iff (upper : Str → Str) (fs : FileSystem) {files : List Str}
    (hp : PlainFiles files) : ∃ n, ∀ m, n ≤ m → ∀ t,
      symFilesExit upper fs m files [] = some t ↔ FilesSay fs files t := by
  obtain ⟨n, hn⟩ := filesExit_iff fs files
  refine ⟨n, fun m hm t => ?_⟩
  rw [symFilesExit_eq (plainFiles_iff.1 hp) plain4_nil]
  exact hn m hm t

/-- C180: check-symbols. -/
theorem C180_check_symbols (prog : Str) (upper : Str → Str) (fs : FileSystem) (argv : List Str)
    (hp : ∀ os args, Means CHECK_SYMBOLS_OPTS argv os args → PlainFiles args) :
    ∃ n, ∀ m, n ≤ m → SaysIs CHECK_SYMBOLS_OPTS prog (py "filename [filename]...") NoFile
      (fun _ args t => FilesSay fs args t) argv (checkSymbolsExit prog upper fs m argv) := by
  refine files_say C153_good.2.1 (loop := fun m args => symFilesExit upper fs m args []) ?_ ?_
    fun os args hm => symFilesExit_iff upper fs (hp os args hm)
  · intro m e he; unfold checkSymbolsExit; rw [he]
  · intro m v args he; unfold checkSymbolsExit; rw [he]

/-- C180: list-symbols. -/
theorem C180_list_symbols (prog : Str) (upper : Str → Str) (fs : FileSystem) (argv : List Str)
    (hp : ∀ os args, Means VERBOSE_OPTS argv os args → PlainFiles args) :
    ∃ n, ∀ m, n ≤ m → SaysIs VERBOSE_OPTS prog (py "filename [filename]...") NoFile
      (fun _ args t => FilesSay fs args t) argv (listSymbolsExit prog upper fs m argv) := by
  refine files_say C153_good.2.2.2.2.1 (loop := fun m args => symFilesExit upper fs m args []) ?_ ?_
    fun os args hm => symFilesExit_iff upper fs (hp os args hm)
  · intro m e he; unfold listSymbolsExit; rw [he]
  · intro m v args he; unfold listSymbolsExit; rw [he]

/-- C180: parse. -/
theorem C180_parse (prog : Str) (upper : Str → Str) (fs : FileSystem) (argv : List Str)
    (hp : ∀ os args, Means PARSE_OPTS argv os args → PlainFiles args) :
    ∃ n, ∀ m, n ≤ m → SaysIs PARSE_OPTS prog (py "filename [filename]...") NoFile
      (fun _ args t => FilesSay fs args t) argv (parseExit prog upper fs m argv) := by
  refine files_say C153_good.2.2.2.2.2.1 (loop := fun m args =>
    match parseSymbolsRun upper fs m args [] 0 [] with
    | (_, _, .error _) => symFilesExit upper fs m args []
    | (_, _, .ok ()) => filesExit fs m args) ?_ ?_ fun os args hm => ?_
  · intro m e he; unfold parseExit; rw [he]
  · intro m v args he
    unfold parseExit
    rw [he]
    simp only
    split
    · rfl
    · split <;> (rename_i h; rw [h])
  · obtain ⟨n, hn⟩ := symFilesExit_iff upper fs (hp os args hm)
    refine ⟨n, fun m hm' t => ?_⟩
    have := symFilesExit_eq (upper := upper) (fs := fs) (fuel := m) (plainFiles_iff.1 (hp os args hm))
      plain4_nil
    split
    · exact hn m hm' t
    · rw [← this]; exact hn m hm' t

/-- C180: list-instructions. -/
theorem C180_list (prog : Str) (fs : FileSystem) (argv : List Str) :
    ∃ n, ∀ m, n ≤ m → SaysIs LIST_INSTRUCTIONS_OPTS prog (py "opcode filename [filename]...") NoOpcode
      (fun _ args t => FilesSay fs (args.drop 1) t) argv (listInstructionsExit prog fs m argv) := by
  have hg := C153_good.2.2.2.1
  refine tool_says hg (list_usage prog) ?_ fun os args hm hh => ?_
  · intro m e he; unfold listInstructionsExit; rw [he]
  rcases means_values hg hm with ⟨e, -⟩ | ⟨-, v, e, -⟩
  · exact absurd e hh
  cases args with
  | nil =>
    refine ⟨fun fault hf m => ?_, fun h => absurd (.inl ⟨rfl, rfl⟩) (h _)⟩
    rcases hf with ⟨-, rfl⟩ | ⟨_, _, _, h, -⟩
    · unfold listInstructionsExit; rw [e]
    · cases h
  | cons opcode files =>
    have hcom : (if opcode.contains ',' = true then splitFirst opcode ',' else opcode) =
        splitFirst opcode ',' := by
      split
      · rfl
      · rename_i h; rw [splitFirst_id (by rw [← contains_comma]; exact h)]
    have hst : ∀ m, listInstructionsExit prog fs m argv =
        if ¬ INSTRUCTIONS.contains (splitFirst opcode ',') = true then
          some (errorText prog LIST_USAGE (py "ERROR: invalid opcode \"" ++ opcode ++ py "\""))
        else (filesExit fs m files).map sysExitText := by
      intro m
      unfold listInstructionsExit
      rw [e]
      simp only [hcom]
    simp only [hst]
    constructor
    · rintro fault (⟨h, -⟩ | ⟨o, f, p, h1, h2, h3, rfl⟩) m
      · cases h
      · cases h1
        rw [if_pos]
        rw [beforeFirst_unique h2, List.contains_iff_mem]
        exact h3
    · intro hn
      have hin : splitFirst opcode ',' ∈ INSTRUCTIONS :=
        not_not.1 fun h => hn _ (.inr ⟨opcode, files, _, rfl, beforeFirst ',' opcode, h, rfl⟩)
      obtain ⟨n, hn⟩ := filesExit_iff fs files
      refine ⟨n, fun m hm t => ?_⟩
      rw [if_neg (not_not.2 (List.contains_iff_mem.2 hin))]
      exact map_exit (hn m hm) t

/-- C180: find-symbols. -/
theorem C180_find_symbols (prog : Str) (upper : Str → Str) (fs : FileSystem) (argv : List Str)
    (hp : ∀ os args, Means FIND_SYMBOLS_OPTS argv os args → PlainFiles (args.drop 1)) :
    ∃ n, ∀ m, n ≤ m → SaysIs FIND_SYMBOLS_OPTS prog (py "[options] symbol filename [filename]...")
      NoSearch (fun _ args t => FilesSay fs (args.drop 1) t) argv
      (findSymbolsExit prog upper fs m argv) := by
  have hg := C153_good.2.2.1
  refine tool_says hg (find_usage prog) ?_ fun os args hm hh => ?_
  · intro m e he; unfold findSymbolsExit; rw [he]
  rcases means_values hg hm with ⟨e, -⟩ | ⟨-, v, e, hv⟩
  · exact absurd e hh
  have hst : ∀ m, findSymbolsExit prog upper fs m argv =
      if Conflict os then some (errorText prog FIND_USAGE (py "Conflicting options!"))
      else if args.length < 2 then some (errorText prog FIND_USAGE
        (py "usage: %prog [options] symbol filename [filename]..."))
      else (symFilesExit upper fs m (args.drop 1) []).map sysExitText := by
    intro m
    unfold findSymbolsExit
    rw [e]
    simp only
    rw [hv (py "begin") (by decide), hv (py "end") (by decide), hv (py "fuzzy") (by decide),
      hv (py "exact") (by decide)]
    by_cases hc : Conflict os
    · rw [if_pos hc, if_pos ((count_two _ _ _ _).1 ((conflict_iff os).1 hc))]
    · rw [if_neg hc, if_neg fun h => hc ((conflict_iff os).2 ((count_two _ _ _ _).2 h))]
  simp only [hst]
  constructor
  · rintro fault (⟨h, rfl⟩ | ⟨h, h2, rfl⟩) m
    · rw [if_pos h]
    · rw [if_neg h, if_pos h2]
  · intro hn
    have hc : ¬ Conflict os := fun h => hn _ (.inl ⟨h, rfl⟩)
    have hlen : ¬ args.length < 2 := fun h => hn _ (.inr ⟨hc, h, rfl⟩)
    obtain ⟨n, hn⟩ := symFilesExit_iff upper fs (hp os args hm)
    refine ⟨n, fun m hm t => ?_⟩
    rw [if_neg hc, if_neg hlen]
    exact map_exit (hn m hm) t

/-- C180: genlines. -/
theorem C180_genlines (prog : Str) (argv : List Str) :
    SaysIs NO_OPTS prog (py "start end [step] [startcol] [endcol]") NoNumbers (fun _ _ _ => False) argv
      (genlinesExit prog argv) := by
  have hg := C153_good.2.2.2.2.2.2
  obtain ⟨n, hn⟩ := tool_says (misuse := NoNumbers) (stops := fun _ _ _ => False) (argv := argv)
    (said := fun _ => genlinesExit prog argv) hg (genlines_usage prog)
    (fun m e he => by unfold genlinesExit; rw [he]) fun os args hm hh => by
    rcases means_values hg hm with ⟨e, -⟩ | ⟨-, v, e, -⟩
    · exact absurd e hh
    unfold genlinesExit NoNumbers
    rw [e]
    rcases args with _ | ⟨a0, _ | ⟨a1, rest⟩⟩
    · refine ⟨?_, fun h => absurd (.inl ⟨by simp, rfl⟩) (h _)⟩
      rintro fault (⟨-, rfl⟩ | ⟨h, -⟩) m
      · rfl
      · simp at h
    · refine ⟨?_, fun h => absurd (.inl ⟨by simp, rfl⟩) (h _)⟩
      rintro fault (⟨-, rfl⟩ | ⟨h, -⟩) m
      · rfl
      · simp at h
    simp only
    constructor
    · rintro fault (⟨h, -⟩ | ⟨-, ⟨a, h1, h2⟩, rfl⟩) m
      · simp only [List.length_cons] at h
        omega
      · by_cases h0 : a0.length > 6
        · rw [if_pos h0]
        · rw [if_neg h0, if_pos]
          simp only [List.take_succ_cons, List.take_zero, List.mem_cons, List.not_mem_nil,
            or_false] at h1
          rcases h1 with rfl | rfl
          · exact absurd h2 h0
          · exact h2
    · intro hn
      have h0 : ¬ a0.length > 6 := fun h => hn _ (.inr ⟨by simp, ⟨a0, by simp, h⟩, rfl⟩)
      have h1 : ¬ a1.length > 6 := fun h => hn _ (.inr ⟨by simp, ⟨a1, by simp, h⟩, rfl⟩)
      refine ⟨0, fun m _ t => ⟨fun h => ?_, fun ⟨_, h, _⟩ => h.elim⟩⟩
      rw [if_neg h0, if_neg h1] at h
      cases hi : pyInt a0 with
      | error e => rw [hi] at h; cases h
      | ok x =>
        rw [hi] at h
        simp only at h
        cases hj : pyInt a1 with
        | error e => rw [hj] at h; cases h
        | ok y =>
          rw [hj] at h
          have := intText_length (pyInt_iff.1 hj)
          simp only at h
          rw [if_neg (by omega)] at h
          cases h
  exact hn n (le_refl n)

/-- C180: genpages. -/
theorem C180_genpages (prog : Str) (fs : FileSystem) (fuel : Nat) (argv : List Str) :
    SaysIs NO_OPTS prog (py "filename") (NoPages fs) (fun _ _ _ => False) argv
      (genpagesExit prog fs fuel argv) := by
  have hg := C153_good.2.2.2.2.2.2
  obtain ⟨n, hn⟩ := tool_says (misuse := NoPages fs) (stops := fun _ _ _ => False) (argv := argv)
    (said := fun _ => genpagesExit prog fs fuel argv) hg (genpages_usage prog)
    (fun m e he => by unfold genpagesExit; rw [he]) fun os args hm hh => by
    rcases means_values hg hm with ⟨e, -⟩ | ⟨-, v, e, -⟩
    · exact absurd e hh
    unfold genpagesExit NoPages
    rw [e]
    cases args with
    | nil =>
      refine ⟨?_, fun h => absurd (.inl ⟨rfl, rfl⟩) (h _)⟩
      rintro fault (⟨-, rfl⟩ | ⟨_, _, h, -⟩) m
      · rfl
      · cases h
    | cons file rest =>
      simp only
      cases hf : fs file with
      | none =>
        refine ⟨?_, fun h => absurd (.inr ⟨file, rest, rfl, .inl ⟨hf, rfl⟩⟩) (h _)⟩
        rintro fault (⟨h, -⟩ | ⟨_, _, h, ⟨-, rfl⟩ | ⟨text, h1, -⟩⟩) m
        · cases h
        · cases h; rfl
        · cases h; rw [hf] at h1; cases h1
      | some text =>
        simp only
        have key : ∀ fault, ((file :: rest = ([] : List Str) ∧ fault = py "usage: %prog filename") ∨
            ∃ file' rest', file :: rest = file' :: rest' ∧
            ((fs file' = none ∧ fault = py "Filename " ++ file' ++ py " does not exist!") ∨
             ∃ text, fs file' = some text ∧ SoundComments (readlines text) ∧
              (((¬ ∃ sec c8, LogName (readlines text) sec c8) ∧
                fault = py "Cannot determine log section!") ∨
               (∃ sec c8, LogName (readlines text) sec c8) ∧
                ∃ a b, LastPages (readlines text) a b ∧ b < a ∧
                fault = py "Invalid page numbers!"))) ↔
            SoundComments (readlines text) ∧
              (((¬ ∃ sec c8, LogName (readlines text) sec c8) ∧
                fault = py "Cannot determine log section!") ∨
               (∃ sec c8, LogName (readlines text) sec c8) ∧
                ∃ a b, LastPages (readlines text) a b ∧ b < a ∧
                fault = py "Invalid page numbers!") := by
          intro fault
          constructor
          · rintro (⟨h, -⟩ | ⟨_, _, h, ⟨h1, -⟩ | ⟨text', h1, h2, h3⟩⟩)
            · cases h
            · cases h; rw [hf] at h1; cases h1
            · cases h; rw [hf] at h1; cases h1; exact ⟨h2, h3⟩
          · rintro ⟨h1, h2⟩
            exact .inr ⟨file, rest, rfl, .inr ⟨text, hf, h1, h2⟩⟩
        simp only [key]
        rcases pagesInfo_cases fs fuel (readlines text) with
          ⟨h1, e', h2, -⟩ | ⟨h1, sec, v, p, h2, h3, h4⟩
        · rw [h2]
          exact ⟨fun fault h => absurd h.1 h1, fun _ => ⟨0, fun m _ t =>
            ⟨nofun, fun ⟨_, h, _⟩ => h.elim⟩⟩⟩
        · rw [h2]
          simp only
          rcases h3 with ⟨rfl, h3⟩ | ⟨s, rfl, h3⟩
          · refine ⟨?_, fun h => absurd ⟨h1, .inl ⟨h3, rfl⟩⟩ (h _)⟩
            rintro fault ⟨-, ⟨-, rfl⟩ | ⟨h, -⟩⟩ m
            · rfl
            · exact absurd h h3
          · rcases h4 with ⟨rfl, h4⟩ | ⟨a, b, rfl, h4⟩
            · refine ⟨?_, fun _ => ⟨0, fun m _ t => ⟨nofun, fun ⟨_, h, _⟩ => h.elim⟩⟩⟩
              rintro fault ⟨-, ⟨h, -⟩ | ⟨-, a, b, ⟨pre, l, post, e, ⟨r, w, rfl, -⟩, -⟩, -⟩⟩ m
              · exact absurd ⟨_, _, h3⟩ h
              · exact absurd ⟨r, rfl⟩ (h4 _ (by rw [e]; simp))
            · simp only
              by_cases hab : (a : Int) > b
              · rw [if_pos hab]
                refine ⟨?_, fun h => absurd
                  ⟨h1, .inr ⟨⟨_, _, h3⟩, a, b, h4, by omega, rfl⟩⟩ (h _)⟩
                rintro fault ⟨-, ⟨h, -⟩ | ⟨-, a', b', -, -, rfl⟩⟩ m
                · exact absurd ⟨_, _, h3⟩ h
                · rfl
              · rw [if_neg hab]
                refine ⟨?_, fun _ => ⟨0, fun m _ t => ⟨nofun, fun ⟨_, h, _⟩ => h.elim⟩⟩⟩
                rintro fault ⟨-, ⟨h, -⟩ | ⟨-, a', b', h', h'', rfl⟩⟩ m
                · exact absurd ⟨_, _, h3⟩ h
                · obtain ⟨rfl, rfl⟩ := lastPages_unique h4 h'
                  omega
  exact hn n (le_refl n)

end H800
