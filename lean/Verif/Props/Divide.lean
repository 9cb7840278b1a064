import Verif.Lemmas.Inline
import Verif.Props.Inline
import Verif.Props.Segments

/-!
Property C208: which files the lines of a program are given in, and under which names.
-/

namespace H800

open Spec

/-- C208, the instruction tools: what check-instructions and list-instructions print depends on the lines
of all the files given, one after the other, and not on how many files they are divided into or what the
files are called: it is the same but for line numbers, names of files, the number of lines reported and
what `--verbose` tells about files being read and skipped comments. Lines without code make no difference,
and the limit of nested includes must be large enough for both. -/
theorem C208_divided (fs fs' : FileSystem) (files files' : List Str) (srcs srcs' : List (Str × List Src))
    (h : Read fs files srcs) (h' : Read fs' files' srcs') (hne : [] ∉ files) (hne' : [] ∉ files')
    (h0 : files ≠ []) (h0' : files' ≠ []) (hs : Interspersed (allLines srcs) (allLines srcs')) :
    ∃ N, ∀ fuel ≥ N, ∀ fuel' ≥ N, ∀ (verbose : Bool) (word : Str),
    (∀ opts, anonRun .noFiles (anonCheck .noFiles) (checkInstructionsV verbose fs fuel opts files) =
      anonRun .noFiles (anonCheck .noFiles) (checkInstructionsV verbose fs' fuel' opts files')) ∧
    (∀ details, List.Forall₂ (SameEntry .noFiles details)
        ((listInstructionsV verbose fs fuel details (word :: files)).1.filter (notComment .noFiles))
        ((listInstructionsV verbose fs' fuel' details (word :: files')).1.filter (notComment .noFiles)) ∧
      (listInstructionsV verbose fs fuel details (word :: files)).2 =
        (listInstructionsV verbose fs' fuel' details (word :: files')).2) := by
  obtain ⟨N, hN⟩ := read_fuel h hne
  obtain ⟨M, hM⟩ := read_fuel h' hne'
  have hc := allCards_same (kp := .noFiles) rfl rfl h h' hs
  refine ⟨max N M, fun fuel hf fuel' hf' v word => ?_⟩
  have hr := hN fuel (by omega)
  have hr' := hM fuel' (by omega)
  have hl : 0 < files.length := List.length_pos_of_ne_nil h0
  have hl' : 0 < files'.length := List.length_pos_of_ne_nil h0'
  obtain ⟨rfl, -⟩ := h
  obtain ⟨rfl, -⟩ := h'
  constructor
  · intro opts
    obtain ⟨a1, a2⟩ := checkFilesV_all (kp := .noFiles) rfl rfl v opts hr CheckStateV.init _ rfl
    obtain ⟨b1, b2⟩ := checkFilesV_all (kp := .noFiles) rfl rfl v opts hr' CheckStateV.init _ rfl
    refine check_states v opts (by omega) ?_ (a2.trans b2.symm)
    rw [a1, b1]
    exact fold_same (anonCheckState .noFiles) (checkStepV v opts) (checkStepV_same v opts)
      (checkStepV_idle v opts) hc rfl
  · intro details
    simp only [listInstructionsV]
    generalize (if word.contains ',' then splitFirst word ',' else word) = command
    by_cases hw : INSTRUCTIONS.contains command = true
    · rw [if_neg (not_not.2 hw), if_neg (not_not.2 hw)]
      obtain ⟨a1, a2⟩ := listFilesV_all (kp := .noFiles) rfl rfl v details word hr
      obtain ⟨b1, b2⟩ := listFilesV_all (kp := .noFiles) rfl rfl v details word hr'
      refine ⟨?_, a2.trans b2.symm⟩
      rw [a1, b1, ← listStepV_skip (kp := .noFiles), ← listStepV_skip (kp := .noFiles) (a := allCards srcs')]
      have hsrc : ∀ (z : List (Str × List Src)), ∀ c ∈ (allCards z).filter (counts .noFiles),
          ∃ s, c = srcCard s := by
        intro z c hz
        obtain ⟨p, -, hp⟩ := List.mem_flatMap.1 (List.mem_of_mem_filter hz)
        obtain ⟨s, -, e⟩ := List.mem_map.1 hp
        exact ⟨s, e.symm⟩
      exact forall_src (hsrc _) (hsrc _) (list_forall_same hc) v details word
    · rw [if_pos hw, if_pos hw]
      exact ⟨.nil, rfl⟩

/-- C208, all tools: if each file given is replaced by another whose name begins in the same way, up to
the first dot, and that expands to the same lines but for lines without code, every tool prints the same
but for line numbers, names of files, the number of lines reported and what `--verbose` tells about files
being read and skipped comments; and it ends in the same way. -/
theorem C208_renamed (fs fs' : FileSystem) (files files' : List Str) (srcs srcs' : List (Str × List Src))
    (h : Read fs files srcs) (h' : Read fs' files' srcs') (hs : SameSegments srcs srcs') :
    ∃ N, ∀ fuel ≥ N, ∀ fuel' ≥ N, ∀ (verbose : Bool) (upper : Str → Str)
      (extract : Str → List Str → Nat → List Str) (word : Str),
    (∀ opts, anonRun .noFiles (anonCheck .noFiles) (checkInstructionsV verbose fs fuel opts files) =
      anonRun .noFiles (anonCheck .noFiles) (checkInstructionsV verbose fs' fuel' opts files')) ∧
    (∀ details, List.Forall₂ (SameEntry .noFiles details)
        ((listInstructionsV verbose fs fuel details (word :: files)).1.filter (notComment .noFiles))
        ((listInstructionsV verbose fs' fuel' details (word :: files')).1.filter (notComment .noFiles)) ∧
      (listInstructionsV verbose fs fuel details (word :: files)).2 =
        (listInstructionsV verbose fs' fuel' details (word :: files')).2) ∧
    (∀ complex, anonRun .noFiles (anonSym .noFiles) (checkSymbolsV verbose upper extract fs fuel complex files) =
      anonRun .noFiles (anonSym .noFiles) (checkSymbolsV verbose upper extract fs' fuel' complex files')) ∧
    (∀ b e z x,
      anonRun .noFiles (anonSym .noFiles) (findSymbolsV verbose upper extract fs fuel b e z x (word :: files)) =
        anonRun .noFiles (anonSym .noFiles)
          (findSymbolsV verbose upper extract fs' fuel' b e z x (word :: files'))) ∧
    anonRun .noFiles (anonSym .noFiles) (listSymbolsV verbose upper fs fuel files) =
      anonRun .noFiles (anonSym .noFiles) (listSymbolsV verbose upper fs' fuel' files') ∧
    ∀ debug, anonRun .noFiles (anonParse .noFiles) (parseV verbose upper fs fuel debug files) =
      anonRun .noFiles (anonParse .noFiles) (parseV verbose upper fs' fuel' debug files') := by
  obtain ⟨N, hN⟩ := sameFiles_lines (kp := .noFiles) rfl rfl h h' (hs.imp fun p q e => by
    obtain ⟨⟨s, h1, h2⟩, h3, h4⟩ := e
    exact ⟨h3, (beforeFirst_unique h1).trans (beforeFirst_unique h2).symm, rfl, h4⟩)
  refine ⟨N, fun fuel hf fuel' hf' v upper extract word => ?_⟩
  have hd := hN fuel hf fuel' hf' v
  exact ⟨fun opts => check_decks v opts hd,
    fun details => list_decks v details (args := word :: files) (args' := word :: files') rfl hd,
    fun complex => checkSymbols_decks v upper extract complex hd,
    fun b e z x => findSymbols_decks v upper extract b e z x (args := word :: files)
      (args' := word :: files') rfl hd,
    listSymbols_decks v upper hd, fun debug => parse_decks v upper debug hd⟩

/-- The three lines of the program `exPlainFs` in two files without includes, whose names begin
differently, and in one file under another name. -/
def divFs : FileSystem := fun g =>
  if g = py "A.X" then some (py "        START      TS           LOOP\n        LOOP       ADDD")
  else if g = py "B.X" then some (py "        END        XX\n")
  else if g = py "M.COPY" then
    some (py "        START      TS           LOOP\n# a comment\n        LOOP       ADDD\n        END        XX\n")
  else none

/-- The lines of the two files. -/
def divOut : List (Str × List Src) :=
  [(py "A.X", [⟨py "A.X", 1, py "        START      TS           LOOP\n"⟩,
      ⟨py "A.X", 2, py "        LOOP       ADDD"⟩]),
    (py "B.X", [⟨py "B.X", 1, py "        END        XX\n"⟩])]

/-- The lines of the file under another name. -/
def divCopy : List (Str × List Src) :=
  [(py "M.COPY", [⟨py "M.COPY", 1, py "        START      TS           LOOP\n"⟩,
    ⟨py "M.COPY", 3, py "        LOOP       ADDD\n"⟩, ⟨py "M.COPY", 4, py "        END        XX\n"⟩])]

theorem div_read : Read divFs [py "A.X", py "B.X"] divOut ∧ Read divFs [py "M.COPY"] divCopy := by
  refine ⟨⟨rfl, ?_⟩, ⟨rfl, ?_⟩⟩
  · intro p hp
    simp only [divOut, List.mem_cons, List.not_mem_nil, or_false] at hp
    rcases hp with rfl | rfl
    · exact ⟨_, rfl, .plain (by decide) (by decide) (.plain (by decide) (by decide) (.nil _ _))⟩
    · exact ⟨_, rfl, .plain (by decide) (by decide) (.nil _ _)⟩
  · intro p hp
    rw [divCopy, List.mem_singleton] at hp
    subst hp
    exact ⟨_, rfl, .plain (by decide) (by decide) (.comment
      (.plain (by decide) (by decide) (.plain (by decide) (by decide) (.nil _ _))))⟩

/-- The hypotheses of both parts of C208 are met; and the condition on the names is needed in the second:
the symbol tools find the tag of the second file in another segment. -/
example : Interspersed (allLines divOut) (allLines divCopy) ∧
    Interspersed (allLines [(py "M.A", exPlainOut)]) (allLines divCopy) ∧
    SameSegments [(py "M.A", exPlainOut)] divCopy ∧
    (tableOf asciiUpper divFs 10 [py "M.COPY"]).map (fun t => (dat t (py "END")).map (·.1)) = .ok [py "M"] ∧
    (tableOf asciiUpper divFs 10 [py "A.X", py "B.X"]).map (fun t => (dat t (py "END")).map (·.1)) = .ok [py "B"] := by
  have h1 : Interspersed (exPlainOut.map (·.text)) (allLines divCopy) :=
    .line _ (.line _ (.ended _ (by decide) .nil))
  refine ⟨.line _ (.ended _ (by decide) (.line _ .nil)), h1, .cons ⟨⟨py "M", ?_, ?_⟩, by decide, h1⟩ .nil, ?_, ?_⟩
  · exact ⟨by decide, .inr ⟨py "A", rfl⟩⟩
  · exact ⟨by decide, .inr ⟨py "COPY", rfl⟩⟩
  · decide +kernel
  · decide +kernel

end H800
