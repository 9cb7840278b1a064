import Verif.Lemmas.Inline
import Verif.Props.Intersperse

/-!
Property C198: how the lines of a program are divided among included files changes only the names of
files and the line numbers in the reports.
-/

namespace H800

open Spec

/-- C198: two file systems in which the files given to a tool expand to the same lines but for lines
without code, whatever files the lines stand in. Then every tool prints the same about them, with or
without `--verbose`, but for line numbers, the names of the files that the lines stand in, the number of
lines reported by check-instructions and parse, and what `--verbose` tells about files being read and
skipped comments; and it ends in the same way. The limit of nested includes must be large enough for
both. -/
theorem C198_reports (fs fs' : FileSystem) (files : List Str) (srcs srcs' : List (Str × List Src))
    (h : Read fs files srcs) (h' : Read fs' files srcs') (hs : SameLines srcs srcs') :
    ∃ N, ∀ fuel ≥ N, ∀ fuel' ≥ N, ∀ (verbose : Bool) (upper : Str → Str)
      (extract : Str → List Str → Nat → List Str) (word : Str),
    (∀ opts, anonRun .noPlaces (anonCheck .noPlaces) (checkInstructionsV verbose fs fuel opts files) =
      anonRun .noPlaces (anonCheck .noPlaces) (checkInstructionsV verbose fs' fuel' opts files)) ∧
    (∀ details, List.Forall₂ (SameEntry .noPlaces details)
        ((listInstructionsV verbose fs fuel details (word :: files)).1.filter (notComment .noPlaces))
        ((listInstructionsV verbose fs' fuel' details (word :: files)).1.filter (notComment .noPlaces)) ∧
      (listInstructionsV verbose fs fuel details (word :: files)).2 =
        (listInstructionsV verbose fs' fuel' details (word :: files)).2) ∧
    (∀ complex, anonRun .noPlaces (anonSym .noPlaces) (checkSymbolsV verbose upper extract fs fuel complex files) =
      anonRun .noPlaces (anonSym .noPlaces) (checkSymbolsV verbose upper extract fs' fuel' complex files)) ∧
    (∀ b e z x,
      anonRun .noPlaces (anonSym .noPlaces) (findSymbolsV verbose upper extract fs fuel b e z x (word :: files)) =
        anonRun .noPlaces (anonSym .noPlaces)
          (findSymbolsV verbose upper extract fs' fuel' b e z x (word :: files))) ∧
    anonRun .noPlaces (anonSym .noPlaces) (listSymbolsV verbose upper fs fuel files) =
      anonRun .noPlaces (anonSym .noPlaces) (listSymbolsV verbose upper fs' fuel' files) ∧
    ∀ debug, anonRun .noPlaces (anonParse .noPlaces) (parseV verbose upper fs fuel debug files) =
      anonRun .noPlaces (anonParse .noPlaces) (parseV verbose upper fs' fuel' debug files) := by
  obtain ⟨N, hN⟩ := sameFiles_lines (kp := .noPlaces) rfl rfl h h'
    (hs.imp fun p q e => ⟨by rw [e.1], by rw [e.1], by rw [e.1], e.2⟩)
  refine ⟨N, fun fuel hf fuel' hf' v upper extract word => ?_⟩
  have hd := hN fuel hf fuel' hf' v
  exact ⟨fun opts => check_decks v opts hd, fun details => list_decks v details (args := word :: files) (args' := word :: files) rfl hd,
    fun complex => checkSymbols_decks v upper extract complex hd,
    fun b e z x => findSymbols_decks v upper extract b e z x (args := word :: files) (args' := word :: files) rfl hd,
    listSymbols_decks v upper hd, fun debug => parse_decks v upper debug hd⟩

/-- C198, writing out the included files: if each file given is replaced by the text of all the lines it
expands to, one after the other, then the files expand to the same lines, so that the reports are the
same as `C198_reports` says. -/
theorem C198_inlined (fs fs' : FileSystem) (files : List Str) (srcs : List (Str × List Src))
    (h : Read fs files srcs) (hi : ∀ p ∈ srcs, fs' p.1 = some (inlined p.2)) :
    ∃ srcs', Read fs' files srcs' ∧ SameLines srcs srcs' := by
  obtain ⟨rfl, h⟩ := h
  exact inlined_read h hi

/-- The program `exPlainFs` with the included file written out. -/
def exInlinedFs : FileSystem := fun g =>
  if g = py "M.A" then
    some (py "        START      TS           LOOP\n        LOOP       ADDD\n        END        XX\n")
  else none

/-- The lines that `M.A` expands to. -/
def exPlainOut : List Src :=
  [⟨py "M.A", 1, py "        START      TS           LOOP\n"⟩, ⟨py "S.A", 1, py "        LOOP       ADDD\n"⟩,
    ⟨py "M.A", 3, py "        END        XX"⟩]

/-- The hypotheses of C198 are met by a program with an included file, whose symbols are defined in
other files and lines than those of the program in one file. -/
example : Read exPlainFs [py "M.A"] [(py "M.A", exPlainOut)] ∧
    exInlinedFs (py "M.A") = some (inlined exPlainOut) ∧
    (deckCards exPlainFs 9 (py "M.A")).map (List.map fun c => (c.file, c.line)) =
      .ok [(some (py "M.A"), 1), (some (py "S.A"), 1), (some (py "M.A"), 3)] ∧
    (deckCards exInlinedFs 9 (py "M.A")).map (List.map fun c => (c.file, c.line)) =
      .ok [(some (py "M.A"), 1), (some (py "M.A"), 2), (some (py "M.A"), 3)] := by
  refine ⟨⟨rfl, ?_⟩, by decide +kernel, by decide +kernel, by decide +kernel⟩
  intro p hp
  rw [List.mem_singleton.1 hp]
  refine ⟨_, rfl, ?_⟩
  refine Expand.plain (by decide) (by decide) (Expand.incl (l := py "S.A\n") (name := py "S.A")
    (inner := [⟨py "S.A", 1, py "        LOOP       ADDD\n"⟩]) ?_ rfl ?_ ?_)
  · exact ⟨by decide, by decide, [], ['\n'], blank_nil, rfl, by decide⟩
  · exact Expand.plain (by decide) (by decide) (.nil _ _)
  · exact Expand.plain (by decide) (by decide) (.nil _ _)

end H800
