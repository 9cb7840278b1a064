import Verif.Lemmas.Status
import Verif.Props.CommandTools
import Verif.Props.Trace

/-!
C166: the exit statuses of the tools that read sources. C167: they do not tell whether the sources
have errors.
-/

namespace H800

open Spec
open scoped Classical

theorem tool_status {opts : List Opt} (hg : GoodOpts opts)
    {misuse well : List Opt → List Str → Prop} {argv : List Str} {status : Nat → Nat}
    (hopt : ∀ m e, parseArgs opts argv = .error e → status m = e.status)
    (h : ∀ os args, Means opts argv os args → (¬ ∃ o ∈ os, o.dest = none) →
      (misuse os args → ∀ m, status m = 2) ∧
      (¬ misuse os args → (well os args → ∃ n, ∀ m, n ≤ m → status m = 0) ∧
        (¬ well os args → ∃ n, ∀ m, n ≤ m → status m = 1))) :
    ∃ n, ∀ m, n ≤ m → StatusIs opts misuse well argv (status m) := by
  by_cases hm : ∃ os args, Means opts argv os args ∧ (¬ ∃ o ∈ os, o.dest = none) ∧
      ¬ misuse os args
  · obtain ⟨os, args, h1, h2, h3⟩ := hm
    by_cases h4 : well os args
    · obtain ⟨n, hn⟩ := ((h os args h1 h2).2 h3).1 h4
      refine ⟨n, fun m hm => status_is hg (hopt m) fun os' args' h1' _ => ?_⟩
      obtain ⟨rfl, rfl⟩ := C153_unique hg h1 h1'
      exact ⟨fun h => absurd h h3, fun _ => ⟨fun _ => hn m hm, fun h => absurd h4 h⟩⟩
    · obtain ⟨n, hn⟩ := ((h os args h1 h2).2 h3).2 h4
      refine ⟨n, fun m hm => status_is hg (hopt m) fun os' args' h1' _ => ?_⟩
      obtain ⟨rfl, rfl⟩ := C153_unique hg h1 h1'
      exact ⟨fun h => absurd h h3, fun _ => ⟨fun h => absurd h h4, fun _ => hn m hm⟩⟩
  · refine ⟨0, fun m _ => status_is hg (hopt m) fun os args h1 h2 => ?_⟩
    exact ⟨fun h3 => (h os args h1 h2).1 h3 m, fun h3 => absurd ⟨os, args, h1, h2, h3⟩ hm⟩

theorem bind_ok {α β : Type} {x : Py α} {f : α → Py β} {b : β} (h : (x >>= f) = .ok b) :
    ∃ a, x = .ok a ∧ f a = .ok b := by
  cases x with
  | error e => cases h
  | ok a => exact ⟨a, rfl, h⟩

theorem foldDecks_each {σ : Type} {fs : FileSystem} {fuel : Nat} {step : σ → CodeCard → σ}
    {files : List Str} {st st' : σ}
    (h : files.foldlM (fun st f => do return (← deckCards fs fuel f).foldl step st) st =
      Except.ok (ε := PyErr) st') : ∀ f ∈ files, ∃ cs, deckCards fs fuel f = .ok cs := by
  induction files generalizing st with
  | nil => intro f hf; cases hf
  | cons g files ih =>
    rw [List.foldlM_cons] at h
    cases hd : deckCards fs fuel g with
    | error e => rw [hd] at h; cases h
    | ok cs =>
      rw [hd] at h
      intro f hf
      rcases List.mem_cons.1 hf with rfl | hf
      · exact ⟨cs, hd⟩
      · exact ih h f hf

theorem mapDecks_each {fs : FileSystem} {fuel : Nat} {files : List Str}
    {decks : List (List CodeCard)} (h : files.mapM (deckCards fs fuel) = .ok decks) :
    ∀ f ∈ files, ∃ cs, deckCards fs fuel f = .ok cs := by
  induction files generalizing decks with
  | nil => intro f hf; cases hf
  | cons g files ih =>
    obtain ⟨cs, ds, h1, h2, rfl⟩ := mapM_cons_ok.1 h
    intro f hf
    rcases List.mem_cons.1 hf with rfl | hf
    · exact ⟨cs, h1⟩
    · exact ih h2 f hf

theorem buildAll_each {upper : Str → Str} {fs : FileSystem} {fuel : Nat} {files : List Str}
    {r r' : Symtab × List Nat × Nat}
    (h : files.foldlM (fun r f => do
      let b ← buildSymbolTable upper fs fuel f r.1
      return (b.symtab, r.2.1 ++ [b.errcount], r.2.2 + b.errcount)) r =
      Except.ok (ε := PyErr) r') : CanRead fs files := by
  induction files generalizing r with
  | nil => intro f hf; cases hf
  | cons g files ih =>
    rw [List.foldlM_cons] at h
    cases hd : buildSymbolTable upper fs fuel g r.1 with
    | error e => rw [hd] at h; cases h
    | ok b =>
      rw [hd] at h
      intro f hf
      rcases List.mem_cons.1 hf with rfl | hf
      · obtain ⟨h1, src, h2, -⟩ := build_ok hd
        exact ⟨h1, src, h2⟩
      · exact ih h f hf

/-- C166: check-instructions: a command line without file is a misuse; all is well if the files can be
read, unless `--count` is given without `--unused` and there is no instruction. -/
theorem C166_check (fs : FileSystem) (argv : List Str) :
    ∃ n, ∀ m, n ≤ m → StatusIs CHECK_INSTRUCTIONS_OPTS (fun _ args => args = [])
      (fun os args => CanRead fs args ∧ ¬ (Given os (py "count") ∧ ¬ Given os (py "unused") ∧
        ∀ src, Sources fs args src → ∀ s ∈ src, ∀ i, ¬ HasInstr s i)) argv
      (checkInstructionsStatus fs m argv) := by
  refine tool_status C153_good.1 ?_ fun os args hm hh => ?_
  · intro m e he
    unfold checkInstructionsStatus
    rw [he]
  rcases means_values C153_good.1 hm with ⟨e, -⟩ | ⟨-, v, e, hv⟩
  · exact absurd e hh
  have hst : ∀ m, checkInstructionsStatus fs m argv =
      if args.length < 1 then 2 else exitStatus (checkInstructionsCmd fs m argv).2 := by
    intro m
    unfold checkInstructionsStatus
    rw [e]
  constructor
  · rintro rfl m
    rw [hst, if_pos (by decide)]
  intro hf
  have hlen : ¬ args.length < 1 := by
    intro h; exact hf (List.eq_nil_of_length_eq_zero (by omega))
  simp only [hst, if_neg hlen]
  constructor
  · rintro ⟨hr, hz⟩
    obtain ⟨src, hs⟩ := canRead_of_sources hr
    obtain ⟨n, hn⟩ := C162_check fs argv args os src hm hh hf (fun f hf => (hr f hf).1) hs
    refine ⟨n, fun m hm => ?_⟩
    obtain ⟨out, h1, -⟩ := (hn m hm).2 (by
      rintro ⟨h1, h2, h3⟩
      exact hz ⟨h1, h2, fun src' hs' => by rw [sources_unique hs' hs]; exact h3⟩)
    rw [h1]; rfl
  · intro hw
    by_cases hr : CanRead fs args
    · obtain ⟨src, hs⟩ := canRead_of_sources hr
      obtain ⟨n, hn⟩ := C162_check fs argv args os src hm hh hf (fun f hf => (hr f hf).1) hs
      refine ⟨n, fun m hm => ?_⟩
      have hz := not_not.1 fun h => hw ⟨hr, h⟩
      rw [(hn m hm).1 ⟨hz.1, hz.2.1, hz.2.2 src hs⟩]
      rfl
    · refine ⟨0, fun m _ => exitStatus_one fun _ hok => hr ?_⟩
      have hcmd : (checkInstructionsCmd fs m argv).2 =
          (checkRun fs m ⟨optValue v (py "all"), optValue v (py "count"), optValue v (py "invalid"),
            optValue v (py "printOpcodes"), optValue v (py "sort"),
            optValue v (py "unused")⟩ args).2 := by
        unfold checkInstructionsCmd
        rw [e]
        exact (C151_check _ _ _ _ _).2.1
      rw [hcmd] at hok
      have h1 := ((C137_check_ends fs m _ args).1 _).1 (Prod.ext rfl hok)
      unfold checkInstructions at h1
      rw [if_neg hlen] at h1
      obtain ⟨st, h3, -⟩ := bind_ok h1
      exact canRead_of_decks (foldDecks_each h3)

/-- C166: list-instructions: a command line without argument is a misuse, and so is a first argument
that, up to its first comma, is not an instruction; all is well if the files can be read. -/
theorem C166_list (fs : FileSystem) (argv : List Str) :
    ∃ n, ∀ m, n ≤ m → StatusIs LIST_INSTRUCTIONS_OPTS
      (fun _ args => args = [] ∨ ∃ opcode files p, args = opcode :: files ∧
        BeforeFirst ',' opcode p ∧ p ∉ INSTRUCTIONS)
      (fun _ args => CanRead fs (args.drop 1)) argv (listInstructionsStatus fs m argv) := by
  refine tool_status C153_good.2.2.2.1 ?_ fun os args hm hh => ?_
  · intro m e he
    unfold listInstructionsStatus
    rw [he]
  rcases means_values C153_good.2.2.2.1 hm with ⟨e, -⟩ | ⟨-, v, e, hv⟩
  · exact absurd e hh
  cases args with
  | nil =>
    refine ⟨fun _ m => ?_, fun h => absurd (.inl rfl) h⟩
    unfold listInstructionsStatus
    rw [e]
  | cons opcode files =>
    have hcom : (if opcode.contains ',' = true then splitFirst opcode ',' else opcode) =
        splitFirst opcode ',' := by
      split
      · rfl
      · rename_i h; rw [splitFirst_id (by rw [← contains_comma]; exact h)]
    have hbf := beforeFirst ',' opcode
    have hst : ∀ m, listInstructionsStatus fs m argv =
        if INSTRUCTIONS.contains (splitFirst opcode ',') = true then
          exitStatus (listInstructionsCmd fs m argv).2 else 2 := by
      intro m
      unfold listInstructionsStatus
      rw [e]
      simp only [hcom]
    constructor
    · rintro (h | ⟨o, f, p, h1, h2, h3⟩) m
      · cases h
      · cases h1
        rw [hst, if_neg]
        rw [beforeFirst_unique h2, List.contains_iff_mem]
        exact h3
    · intro hu
      have hin : splitFirst opcode ',' ∈ INSTRUCTIONS :=
        not_not.1 fun h => hu (.inr ⟨opcode, files, _, rfl, hbf, h⟩)
      have hin' : INSTRUCTIONS.contains (splitFirst opcode ',') = true :=
        List.contains_iff_mem.2 hin
      simp only [hst, if_pos hin', List.drop_one, List.tail_cons]
      constructor
      · intro hr
        obtain ⟨src, hs⟩ := canRead_of_sources hr
        obtain ⟨n, hn⟩ := (C163_list fs argv files opcode _ os src hm hh (fun f hf => (hr f hf).1)
          hs hbf).2 hin
        refine ⟨n, fun m hm => ?_⟩
        obtain ⟨out, h1, -⟩ := hn m hm
        rw [h1]; rfl
      · intro hr
        refine ⟨0, fun m _ => exitStatus_one fun _ hok => hr ?_⟩
        have hcmd : (listInstructionsCmd fs m argv).2 =
            (listRun fs m (optValue v (py "details")) (opcode :: files)).2 := by
          unfold listInstructionsCmd
          rw [e]
          exact (C151_list _ _ _ _ _).2.1
        rw [hcmd] at hok
        have h1 := ((C137_list_ends fs m _ _).1 _).1 (Prod.ext rfl hok)
        simp only [listInstructions, hcom] at h1
        rw [if_neg (not_not.2 hin')] at h1
        obtain ⟨st, h3, -⟩ := bind_ok h1
        exact canRead_of_decks (mapDecks_each h3)

theorem listing_each {fuel : Nat} {fs fs' : FileSystem} {files : List Str}
    (h : listingFiles fuel fs files = (fs', .ok ())) : ∀ f ∈ files, f ≠ [] := by
  induction files generalizing fs with
  | nil => intro f hf; cases hf
  | cons g files ih =>
    rw [listingFiles] at h
    cases hd : deckCards fs fuel g with
    | error e => rw [hd] at h; cases h
    | ok cs =>
      rw [hd] at h
      intro f hf
      rcases List.mem_cons.1 hf with rfl | hf
      · exact (deckCards_ok hd).1
      · exact ih h f hf

/-- C166: listing: a command line without file is a misuse; all is well if the files can be listed one
after the other. -/
theorem C166_listing (fs : FileSystem) (argv : List Str) :
    ∃ n, ∀ m, n ≤ m → StatusIs VERBOSE_OPTS (fun _ args => args = [])
      (fun _ args => (∀ f ∈ args, f ≠ []) ∧ ∃ fs', Listed fs args fs') argv
      (listingStatus fs m argv) := by
  refine tool_status C153_good.2.2.2.2.1 ?_ fun os args hm hh => ?_
  · intro m e he
    unfold listingStatus
    rw [he]
  rcases means_values C153_good.2.2.2.2.1 hm with ⟨e, -⟩ | ⟨-, v, e, hv⟩
  · exact absurd e hh
  have hst : ∀ m, listingStatus fs m argv =
      if args.length < 1 then 2 else exitStatus (listingCmd fs m argv).2.2 := by
    intro m
    unfold listingStatus
    rw [e]
  constructor
  · rintro rfl m
    rw [hst, if_pos (by decide)]
  intro hf
  have hlen : ¬ args.length < 1 := by
    intro h; exact hf (List.eq_nil_of_length_eq_zero (by omega))
  simp only [hst, if_neg hlen]
  constructor
  · rintro ⟨hne, fs', hl⟩
    obtain ⟨n, hn⟩ := C163_listing fs fs' argv args os hm hh hf hne hl
    refine ⟨n, fun m hm => ?_⟩
    obtain ⟨out, h1, -⟩ := hn m hm
    rw [h1]; rfl
  · intro hw
    refine ⟨0, fun m _ => exitStatus_one fun _ hok => hw ?_⟩
    have hcmd : (listingCmd fs m argv).2.2 = (listingMain fs m args).2 := by
      unfold listingCmd
      rw [e]
      exact (C151_listing _ _ _ _).2.1
    rw [hcmd] at hok
    have h1 : listingMain fs m args = ((listingMain fs m args).1, .ok ()) := Prod.ext rfl hok
    refine ⟨?_, _, (C94_contents _ _ _ _ h1).2⟩
    unfold listingMain at h1
    rw [if_neg hlen] at h1
    exact listing_each h1

/-- C166: check-symbols: a command line without file is a misuse; all is well if the files can be
read. -/
theorem C166_check_symbols (upper : Str → Str) (extract : Str → List Str → Nat → List Str)
    (fs : FileSystem) (argv : List Str)
    (hp : ∀ os args, Means CHECK_SYMBOLS_OPTS argv os args → PlainFiles args) :
    ∃ n, ∀ m, n ≤ m → StatusIs CHECK_SYMBOLS_OPTS (fun _ args => args = [])
      (fun _ args => CanRead fs args) argv (checkSymbolsStatus upper extract fs m argv) := by
  refine tool_status C153_good.2.1 ?_ fun os args hm hh => ?_
  · intro m e he
    unfold checkSymbolsStatus
    rw [he]
  rcases means_values C153_good.2.1 hm with ⟨e, -⟩ | ⟨-, v, e, hv⟩
  · exact absurd e hh
  have hst : ∀ m, checkSymbolsStatus upper extract fs m argv =
      if args.length < 1 then 2 else exitStatus (checkSymbolsCmd upper extract fs m argv).2 := by
    intro m
    unfold checkSymbolsStatus
    rw [e]
  constructor
  · rintro rfl m
    rw [hst, if_pos (by decide)]
  intro hf
  have hlen : ¬ args.length < 1 := by
    intro h; exact hf (List.eq_nil_of_length_eq_zero (by omega))
  simp only [hst, if_neg hlen]
  constructor
  · intro hr
    obtain ⟨srcs, hs⟩ := canRead_read hr
    obtain ⟨n, hn⟩ := C164_check upper extract fs argv args os srcs hm hh hf
      (fun f hf => (hr f hf).1) (hp _ _ hm) hs
    refine ⟨n, fun m hm => ?_⟩
    obtain ⟨out, rs, und, h1, -⟩ := hn m hm
    rw [h1]; rfl
  · intro hr
    refine ⟨0, fun m _ => exitStatus_one fun _ hok => hr ?_⟩
    have hcmd : (checkSymbolsCmd upper extract fs m argv).2 =
        (checkSymbolsRun upper extract fs m (optValue v (py "complex")) args).2 := by
      unfold checkSymbolsCmd
      rw [e]
      exact (C151_check_symbols _ _ _ _ _ _ _).2.1
    rw [hcmd] at hok
    obtain ⟨rep, h1⟩ := (C147_check_success upper extract fs m _ args (hp _ _ hm)).1 _
      (Prod.ext rfl hok)
    unfold checkSymbols at h1
    rw [if_neg hlen] at h1
    obtain ⟨r, h3, -⟩ := bind_ok h1
    exact buildAll_each h3

/-- C166: list-symbols: a command line without file is a misuse; all is well if the files can be
read. -/
theorem C166_list_symbols (upper : Str → Str) (fs : FileSystem) (argv : List Str)
    (hp : ∀ os args, Means VERBOSE_OPTS argv os args → PlainFiles args) :
    ∃ n, ∀ m, n ≤ m → StatusIs VERBOSE_OPTS (fun _ args => args = [])
      (fun _ args => CanRead fs args) argv (listSymbolsStatus upper fs m argv) := by
  refine tool_status C153_good.2.2.2.2.1 ?_ fun os args hm hh => ?_
  · intro m e he
    unfold listSymbolsStatus
    rw [he]
  rcases means_values C153_good.2.2.2.2.1 hm with ⟨e, -⟩ | ⟨-, v, e, hv⟩
  · exact absurd e hh
  have hst : ∀ m, listSymbolsStatus upper fs m argv =
      if args.length < 1 then 2 else exitStatus (listSymbolsCmd upper fs m argv).2 := by
    intro m
    unfold listSymbolsStatus
    rw [e]
  constructor
  · rintro rfl m
    rw [hst, if_pos (by decide)]
  intro hf
  have hlen : ¬ args.length < 1 := by
    intro h; exact hf (List.eq_nil_of_length_eq_zero (by omega))
  simp only [hst, if_neg hlen]
  constructor
  · intro hr
    obtain ⟨srcs, hs⟩ := canRead_read hr
    obtain ⟨n, hn⟩ := C164_list upper fs argv args os srcs hm hh hf
      (fun f hf => (hr f hf).1) (hp _ _ hm) hs
    refine ⟨n, fun m hm => ?_⟩
    obtain ⟨out, rs, l, h1, -⟩ := hn m hm
    rw [h1]; rfl
  · intro hr
    refine ⟨0, fun m _ => exitStatus_one fun _ hok => hr ?_⟩
    have hcmd : (listSymbolsCmd upper fs m argv).2 = (listSymbolsRun upper fs m args).2 := by
      unfold listSymbolsCmd
      rw [e]
      exact (C151_list_symbols _ _ _ _ _).2.1
    rw [hcmd] at hok
    obtain ⟨rep, h1⟩ := (C147_list_success upper fs m args (hp _ _ hm)).1 _ (Prod.ext rfl hok)
    unfold listSymbols at h1
    rw [if_neg hlen] at h1
    obtain ⟨r, h3, -⟩ := bind_ok h1
    exact buildAll_each h3

theorem count_two : ∀ b e f x : Bool, 2 ≤ [b, e, f, x].count true ↔
    ((b && x) || (e && x) || (b && e) || (f && (b || e || x))) = true := by decide

/-- C166: find-symbols: options that exclude each other are a misuse, and so is a command line without
symbol or without file; all is well if the files can be read. -/
theorem C166_find_symbols (upper : Str → Str) (extract : Str → List Str → Nat → List Str)
    (fs : FileSystem) (argv : List Str)
    (hp : ∀ os args, Means FIND_SYMBOLS_OPTS argv os args → PlainFiles (args.drop 1)) :
    ∃ n, ∀ m, n ≤ m → StatusIs FIND_SYMBOLS_OPTS (fun os args => Conflict os ∨ args.length < 2)
      (fun _ args => CanRead fs (args.drop 1)) argv
      (findSymbolsStatus upper extract fs m argv) := by
  refine tool_status C153_good.2.2.1 ?_ fun os args hm hh => ?_
  · intro m e he
    unfold findSymbolsStatus
    rw [he]
  rcases means_values C153_good.2.2.1 hm with ⟨e, -⟩ | ⟨-, v, e, hv⟩
  · exact absurd e hh
  have hst : ∀ m, findSymbolsStatus upper extract fs m argv =
      if Conflict os then 2 else if args.length < 2 then 2 else
        exitStatus (findSymbolsCmd upper extract fs m argv).2 := by
    intro m
    unfold findSymbolsStatus
    rw [e]
    simp only
    rw [hv (py "begin") (by decide), hv (py "end") (by decide), hv (py "fuzzy") (by decide),
      hv (py "exact") (by decide)]
    by_cases hc : Conflict os
    · rw [if_pos hc, if_pos ((count_two _ _ _ _).1 ((conflict_iff os).1 hc))]
    · rw [if_neg hc, if_neg fun h => hc ((conflict_iff os).2 ((count_two _ _ _ _).2 h))]
  constructor
  · rintro (h | h) m
    · rw [hst, if_pos h]
    · rw [hst, if_pos h, ite_self]
  intro hu
  have hc : ¬ Conflict os := fun h => hu (.inl h)
  have hl : ¬ args.length < 2 := fun h => hu (.inr h)
  simp only [hst, if_neg hc, if_neg hl]
  obtain ⟨symbol, files, rfl⟩ : ∃ symbol files, args = symbol :: files := by
    cases args with
    | nil => exact absurd (by decide) hl
    | cons a l => exact ⟨a, l, rfl⟩
  have hf : files ≠ [] := by rintro rfl; exact hl (by simp)
  rw [List.drop_one, List.tail_cons]
  have hpf : PlainFiles files := hp _ _ hm
  constructor
  · intro hr
    obtain ⟨srcs, hs⟩ := canRead_read hr
    obtain ⟨n, hn⟩ := (C164_find upper extract fs argv _ os hm hh).2 symbol files srcs hc rfl hf
      (fun f hf => (hr f hf).1) hpf hs
    refine ⟨n, fun m hm => ?_⟩
    obtain ⟨out, rs, l, h1, -⟩ := hn m hm
    rw [h1]; rfl
  · intro hr
    refine ⟨0, fun m _ => exitStatus_one fun _ hok => hr ?_⟩
    have hcmd : (findSymbolsCmd upper extract fs m argv).2 =
        (findSymbolsRun upper extract fs m (optValue v (py "begin")) (optValue v (py "end"))
          (optValue v (py "fuzzy")) (optValue v (py "exact")) (symbol :: files)).2 := by
      unfold findSymbolsCmd
      rw [e]
      exact (C151_find_symbols _ _ _ _ _ _ _ _ _ _).2.1
    rw [hcmd] at hok
    obtain ⟨rep, h1⟩ := (C147_find_success upper extract fs m _ _ _ _ symbol files hpf).1 _
      (Prod.ext rfl hok)
    unfold findSymbols at h1
    split at h1
    · cases h1
    · obtain ⟨g, files, rfl⟩ := List.exists_cons_of_ne_nil hf
      simp only at h1
      obtain ⟨r, h3, -⟩ := bind_ok h1
      exact buildAll_each h3

theorem parseSymbols_each {upper : Str → Str} {fs : FileSystem} {fuel : Nat} {files : List Str}
    {st st' : ParseState} (h : parseSymbols upper fs fuel files st = .ok st') : CanRead fs files := by
  unfold parseSymbols at h
  induction files generalizing st with
  | nil => intro f hf; cases hf
  | cons g files ih =>
    rw [List.foldlM_cons] at h
    cases hd : buildSymbolTable upper fs fuel g st.symtab with
    | error e => rw [hd] at h; cases h
    | ok b =>
      rw [hd] at h
      intro f hf
      rcases List.mem_cons.1 hf with rfl | hf
      · obtain ⟨h1, src, h2, -⟩ := build_ok hd
        exact ⟨h1, src, h2⟩
      · exact ih h f hf

/-- C166: parse: a command line without file is a misuse; all is well if the files can be read. -/
theorem C166_parse (upper : Str → Str) (fs : FileSystem) (argv : List Str)
    (hp : ∀ os args, Means PARSE_OPTS argv os args → PlainFiles args) :
    ∃ n, ∀ m, n ≤ m → StatusIs PARSE_OPTS (fun _ args => args = [])
      (fun _ args => CanRead fs args) argv (parseStatus upper fs m argv) := by
  refine tool_status C153_good.2.2.2.2.2.1 ?_ fun os args hm hh => ?_
  · intro m e he
    unfold parseStatus
    rw [he]
  rcases means_values C153_good.2.2.2.2.2.1 hm with ⟨e, -⟩ | ⟨-, v, e, hv⟩
  · exact absurd e hh
  have hst : ∀ m, parseStatus upper fs m argv =
      if args.length < 1 then 2 else exitStatus (parseCmd upper fs m argv).2 := by
    intro m
    unfold parseStatus
    rw [e]
  constructor
  · rintro rfl m
    rw [hst, if_pos (by decide)]
  intro hf
  have hlen : ¬ args.length < 1 := by
    intro h; exact hf (List.eq_nil_of_length_eq_zero (by omega))
  simp only [hst, if_neg hlen]
  constructor
  · intro hr
    obtain ⟨srcs, hs⟩ := canRead_read hr
    obtain ⟨last, hl⟩ : ∃ last, srcs.getLast? = some last := by
      cases hq : srcs.getLast? with
      | some l => exact ⟨l, rfl⟩
      | none =>
        rw [List.getLast?_eq_none_iff] at hq
        subst hq
        exact absurd hs.1.symm hf
    obtain ⟨n, hn⟩ := C165_parse upper fs argv args os srcs last hm hh hl
      (fun f hf => (hr f hf).1) (hp _ _ hm) hs
    refine ⟨n, fun m hm => ?_⟩
    obtain ⟨out, rs, l, h1, -⟩ := hn m hm
    rw [h1]; rfl
  · intro hr
    refine ⟨0, fun m _ => exitStatus_one fun _ hok => hr ?_⟩
    have hcmd : ∃ o, parseRun upper fs m (optValue v (py "debug")) args =
        (o, (parseCmd upper fs m argv).2) := by
      obtain ⟨syms, checks, -, -, h⟩ := C151_parse (optValue v (py "verbose")) upper fs m
        (optValue v (py "debug")) args
      refine ⟨⟨checks, errNumbers syms⟩, h.trans ?_⟩
      unfold parseCmd
      rw [e]
    obtain ⟨o, ho⟩ := hcmd
    rw [hok] at ho
    obtain ⟨st, h1⟩ := (C138_ends upper fs m _ args).2 o ho
    unfold parseMain at h1
    rw [if_neg hlen] at h1
    obtain ⟨r, h3, -⟩ := bind_ok h1
    exact parseSymbols_each h3

/-- C166: what `StatusIs` says determines the status. -/
theorem C166_unique {opts : List Opt} {misuse well well' : List Opt → List Str → Prop}
    {argv : List Str} {s s' : Nat} (h : StatusIs opts misuse well argv s)
    (h' : StatusIs opts misuse well' argv s')
    (hw : ∀ os args, Means opts argv os args → ¬ misuse os args → (well os args ↔ well' os args)) :
    s = s' := by
  obtain ⟨a, b, c⟩ := h
  obtain ⟨a', b', c'⟩ := h'
  by_cases hh : HelpFirst opts argv
  · rw [a hh, a' hh]
  · by_cases hm : ∃ os args, Means opts argv os args
    · obtain ⟨os, args, hm⟩ := hm
      obtain ⟨c1, c2⟩ := c os args hm hh
      obtain ⟨d1, d2⟩ := c' os args hm hh
      by_cases hu : misuse os args
      · rw [c1 hu, d1 hu]
      · by_cases hwe : well os args
        · rw [(c2 hu).1 hwe, (d2 hu).1 ((hw os args hm hu).1 hwe)]
        · rw [(c2 hu).2 hwe, (d2 hu).2 fun h => hwe ((hw os args hm hu).2 h)]
    · rw [b hh hm, b' hh hm]

/-- C166: help after an option that is known and before a word that is not understood; the other order;
no file; a file that does not exist; and so on. -/
example : HelpFirst CHECK_INSTRUCTIONS_OPTS [py "A.arg", py "-chx", py "--what"] ∧
    checkInstructionsStatus twoFs 5 [py "A.arg", py "-chx", py "--what"] = 0 ∧
    checkInstructionsStatus twoFs 5 [py "--what", py "-h"] = 2 ∧
    checkInstructionsStatus twoFs 5 [py "-c"] = 2 ∧
    checkInstructionsStatus twoFs 5 [py "-c", py "--", py "-h"] = 1 ∧
    checkInstructionsStatus twoFs 5 [py "-c", py "A.arg"] = 0 ∧
    checkInstructionsStatus twoFs 5 [py "C.arg"] = 1 ∧
    listInstructionsStatus twoFs 5 [py "QQ,R", py "A.arg"] = 2 ∧
    findSymbolsStatus asciiUpper (fun _ _ _ => []) twoFs 5 [py "-bx", py "D", py "A.arg"] = 2 ∧
    findSymbolsStatus asciiUpper (fun _ _ _ => []) twoFs 5 [py "-b", py "D", py "A.arg"] = 0 ∧
    CanRead twoFs [py "A.arg", py "B.arg"] ∧ ¬ CanRead twoFs [py "A.arg", py "C.arg"] := by
  refine ⟨⟨[py "A.arg"], py "-chx", [py "--what"], [], [py "A.arg"], rfl, by decide,
    .plain (.inr (by decide)) .done, .inl ⟨py "c", 'h', py "x",
      [⟨py "-c", py "--count", some (py "count")⟩], HELP_OPTION, rfl,
      .cons ⟨by decide, rfl⟩ .nil, by decide, rfl, rfl⟩⟩, ?_, ?_, ?_, ?_, ?_, ?_, ?_, ?_, ?_, ?_, ?_⟩
  · decide +kernel
  · decide +kernel
  · decide +kernel
  · decide +kernel
  · decide +kernel
  · decide +kernel
  · decide +kernel
  · decide +kernel
  · decide +kernel
  · intro f hf
    simp only [List.mem_cons, List.not_mem_nil, or_false] at hf
    rcases hf with rfl | rfl
    · exact ⟨by decide, twoA, twoFs_read.2 (py "A.arg", twoA) (by simp)⟩
    · exact ⟨by decide, twoB, twoFs_read.2 (py "B.arg", twoB) (by simp)⟩
  · intro h
    obtain ⟨-, src, x, hx, -⟩ := h (py "C.arg") (by simp)
    have : twoFs (py "C.arg") = none := by decide
    rw [this] at hx
    cases hx

/-! ### C167 -/

/-- C167, in full: if the files can be read but a line has an unknown instruction, the status of
check-instructions is not 0. -/
def C167_instructions_statement : Prop :=
  ∀ (fs : FileSystem) (argv args : List Str) (os : List Opt) (src : List Src),
    Means CHECK_INSTRUCTIONS_OPTS argv os args → (¬ ∃ o ∈ os, o.dest = none) →
    CanRead fs args → Sources fs args src → (∃ s ∈ src, BadInstr s) →
    ∃ n, ∀ m, n ≤ m → checkInstructionsStatus fs m argv ≠ 0

/-- C167, in full: if the files can be read but a line is in error, the status of check-symbols is not
0. -/
def C167_symbols_statement : Prop :=
  ∀ (upper : Str → Str) (extract : Str → List Str → Nat → List Str) (fs : FileSystem)
    (argv args : List Str) (os : List Opt) (src : List Src),
    Means CHECK_SYMBOLS_OPTS argv os args → (¬ ∃ o ∈ os, o.dest = none) → PlainFiles args →
    CanRead fs args → Sources fs args src → (∃ s ∈ src, InError upper s) →
    ∃ n, ∀ m, n ≤ m → checkSymbolsStatus upper extract fs m argv ≠ 0

/-- One file with one line. -/
def oneFs (line : Str) : FileSystem := fun f => if f = py "B.arg" then some (line ++ py "\n") else none

theorem oneFs_reads (line : Str) (h : readlines (line ++ py "\n") = [line ++ py "\n"])
    (h1 : line.head? ≠ none) (h2 : line.head? ≠ some '#') (h3 : line.head? ≠ some '$') :
    Expands (oneFs line) (py "B.arg") [⟨py "B.arg", 1, line ++ py "\n"⟩] ∧
    ∀ files, CanRead (oneFs line) files ↔ ∀ f ∈ files, f = py "B.arg" := by
  have he : Expands (oneFs line) (py "B.arg") [⟨py "B.arg", 1, line ++ py "\n"⟩] := by
    refine ⟨_, if_pos rfl, ?_⟩
    rw [h]
    cases line with
    | nil => exact absurd rfl h1
    | cons c line => exact .plain (by simpa using h2) (by simpa using h3) (.nil _ _)
  refine ⟨he, fun files => forall₂_congr fun f _ => ⟨?_, ?_⟩⟩
  · rintro ⟨-, src, x, hx, -⟩
    by_contra hf
    unfold oneFs at hx
    rw [if_neg hf] at hx
    cases hx
  · rintro rfl
    exact ⟨by decide, _, he⟩

theorem oneBad : Expands (oneFs (py "                   QB")) (py "B.arg")
      [⟨py "B.arg", 1, py "                   QB\n"⟩] ∧
    ∀ files, CanRead (oneFs (py "                   QB")) files ↔ ∀ f ∈ files, f = py "B.arg" :=
  oneFs_reads (py "                   QB") (by decide) (by decide) (by decide) (by decide)

theorem no_help {opts : List Opt} (hg : GoodOpts opts) {argv : List Str}
    (h : parseArgs opts argv ≠ .error .help) : ¬ HelpFirst opts argv :=
  fun hf => h ((help_iff hg _ _ _).2 hf)

/-- C167 is false: an unknown instruction is reported, and the status is 0. -/
theorem C167_refuted : ¬ C167_instructions_statement ∧ ¬ C167_symbols_statement := by
  constructor
  · intro h
    have hm : Means CHECK_INSTRUCTIONS_OPTS [py "B.arg"] [] [py "B.arg"] :=
      .plain (.inr (by decide)) .done
    have hr := (oneBad.2 [py "B.arg"]).2 (by simp)
    obtain ⟨n, hn⟩ := h _ [py "B.arg"] [py "B.arg"] [] _ hm (by simp) hr
      ⟨[_], .cons oneBad.1 .nil, rfl⟩ ⟨_, List.mem_singleton.2 rfl, (badInst_iff _).1 (by decide +kernel)⟩
    obtain ⟨k, hk⟩ := C166_check (oneFs (py "                   QB")) [py "B.arg"]
    have := (hk (max n k) (by omega)).2.2 _ _ hm (no_help C153_good.1 (by decide))
    refine hn (max n k) (by omega) ((this.2 (by simp)).1 ⟨hr, ?_⟩)
    rintro ⟨⟨o, ho, -⟩, -⟩
    cases ho
  · intro h
    have hm : Means CHECK_SYMBOLS_OPTS [py "A.arg"] [] [py "A.arg"] :=
      .plain (.inr (by decide)) .done
    have he : Expands twoFs (py "A.arg") twoA := twoFs_read.2 (py "A.arg", twoA) (by simp)
    have hr : CanRead twoFs [py "A.arg"] := by
      intro f hf
      rw [List.mem_singleton] at hf
      subst hf
      exact ⟨by decide, _, he⟩
    have hp : PlainFiles [py "A.arg"] := fun f hf => twoFs_plain f (by
      rw [List.mem_singleton] at hf; rw [hf]; exact List.mem_cons_self)
    obtain ⟨n, hn⟩ := h asciiUpper (fun _ _ _ => []) twoFs [py "A.arg"] [py "A.arg"] [] twoA hm
      (by simp) hp hr ⟨[_], .cons he .nil, by simp⟩
      ⟨⟨py "A.arg", 1, py "        b          TN\n"⟩, by decide, (action_err _ _).1 ⟨_, _, _, rfl⟩⟩
    obtain ⟨k, hk⟩ := C166_check_symbols asciiUpper (fun _ _ _ => []) twoFs [py "A.arg"] (by
      intro os args h1
      rw [(C153_unique C153_good.2.1 h1 hm).2]
      exact hp)
    have := (hk (max n k) (by omega)).2.2 _ _ hm (no_help C153_good.2.1 (by decide))
    exact hn (max n k) (by omega) ((this.2 (by simp)).1 hr)

theorem means_args {opts : List Opt} {argv args : List Str} {os : List Opt}
    (h : Means opts argv os args) : ∀ a ∈ args, a ∈ argv := by
  induction h with
  | done => intro a ha; cases ha
  | stop rest => intro a ha; exact List.mem_cons_of_mem _ ha
  | plain _ _ ih =>
    intro b hb
    rcases List.mem_cons.1 hb with rfl | hb
    · exact List.mem_cons_self
    · exact List.mem_cons_of_mem _ (ih b hb)
  | letters _ _ _ ih => intro b hb; exact List.mem_cons_of_mem _ (ih b hb)
  | name _ _ _ ih => intro b hb; exact List.mem_cons_of_mem _ (ih b hb)

/-- C167, what holds: the status depends on the sources only in so far as they can be read. If the same
files can be read in two file systems the statuses are the same, whatever errors the files have; for
check-instructions if `--count` is given with `--unused` only. -/
theorem C167_sources_partial (upper : Str → Str) (extract : Str → List Str → Nat → List Str)
    (fs fs' : FileSystem) (argv : List Str) (hp : PlainFiles argv)
    (hr : ∀ files, CanRead fs files ↔ CanRead fs' files) :
    ∃ n, ∀ m, n ≤ m →
      checkSymbolsStatus upper extract fs m argv = checkSymbolsStatus upper extract fs' m argv ∧
      listSymbolsStatus upper fs m argv = listSymbolsStatus upper fs' m argv ∧
      findSymbolsStatus upper extract fs m argv = findSymbolsStatus upper extract fs' m argv ∧
      parseStatus upper fs m argv = parseStatus upper fs' m argv ∧
      listInstructionsStatus fs m argv = listInstructionsStatus fs' m argv ∧
      ((∀ os args, Means CHECK_INSTRUCTIONS_OPTS argv os args → Given os (py "count") →
          Given os (py "unused")) →
        checkInstructionsStatus fs m argv = checkInstructionsStatus fs' m argv) := by
  have pl : ∀ opts os args, Means opts argv os args → PlainFiles args := fun opts os args h f hf =>
    hp f (means_args h f hf)
  have pl' : ∀ opts os args, Means opts argv os args → PlainFiles (args.drop 1) :=
    fun opts os args h f hf => hp f (means_args h f (List.mem_of_mem_drop hf))
  obtain ⟨a, ha⟩ := C166_check_symbols upper extract fs argv (pl _)
  obtain ⟨a', ha'⟩ := C166_check_symbols upper extract fs' argv (pl _)
  obtain ⟨b, hb⟩ := C166_list_symbols upper fs argv (pl _)
  obtain ⟨b', hb'⟩ := C166_list_symbols upper fs' argv (pl _)
  obtain ⟨c, hc⟩ := C166_find_symbols upper extract fs argv (pl' _)
  obtain ⟨c', hc'⟩ := C166_find_symbols upper extract fs' argv (pl' _)
  obtain ⟨d, hd⟩ := C166_parse upper fs argv (pl _)
  obtain ⟨d', hd'⟩ := C166_parse upper fs' argv (pl _)
  obtain ⟨e, he⟩ := C166_list fs argv
  obtain ⟨e', he'⟩ := C166_list fs' argv
  obtain ⟨k, hk⟩ := C166_check fs argv
  obtain ⟨k', hk'⟩ := C166_check fs' argv
  refine ⟨a + a' + b + b' + c + c' + d + d' + e + e' + k + k', fun m hm => ?_⟩
  refine ⟨C166_unique (ha m (by omega)) (ha' m (by omega)) fun _ _ _ _ => hr _,
    C166_unique (hb m (by omega)) (hb' m (by omega)) fun _ _ _ _ => hr _,
    C166_unique (hc m (by omega)) (hc' m (by omega)) fun _ _ _ _ => hr _,
    C166_unique (hd m (by omega)) (hd' m (by omega)) fun _ _ _ _ => hr _,
    C166_unique (he m (by omega)) (he' m (by omega)) fun _ _ _ _ => hr _,
    fun hcu => C166_unique (hk m (by omega)) (hk' m (by omega)) fun os args h1 _ => ?_⟩
  have no : ∀ q : Prop, ¬ (Given os (py "count") ∧ ¬ Given os (py "unused") ∧ q) :=
    fun q h => h.2.1 (hcu os args h1 h.1)
  exact and_congr (hr _) ⟨fun _ => no _, fun _ => no _⟩

/-- C167: two file systems with the same readable files, one with an error. -/
example : (∀ files, CanRead (oneFs (py "                   QB")) files ↔
      CanRead (oneFs (py "                   TN")) files) ∧
    PlainFiles [py "B.arg", py "-v"] ∧
    checkInstructionsStatus (oneFs (py "                   QB")) 5 [py "B.arg", py "-v"] = 0 ∧
    checkInstructionsStatus (oneFs (py "                   TN")) 5 [py "B.arg", py "-v"] = 0 ∧
    checkInstructionsStatus (oneFs (py "                   TN")) 5 [py "C.arg", py "-v"] = 1 := by
  refine ⟨fun files => (oneBad.2 files).trans ((oneFs_reads _ (by decide) (by decide) (by decide)
    (by decide)).2 files).symm, plainFiles_iff.2 ?_, ?_, ?_, ?_⟩
  · intro f hf
    simp only [List.mem_cons, List.not_mem_nil, or_false] at hf
    rcases hf with rfl | rfl <;> exact ⟨by decide, by decide⟩
  all_goals decide +kernel

end H800
