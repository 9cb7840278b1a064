import Verif.Lemmas.SameDecks

/-!
Property C196: lines without code anywhere in the files change only line numbers in the reports.
-/

namespace H800

open Spec

/-- C196: lines without code (comments, blank lines, page, remark and log cards) put in or taken out
anywhere in any files change nothing that the tools print, with or without `--verbose`, but line
numbers, the number of lines reported by check-instructions and parse, and what `--verbose` tells
about skipped comments; and they change nothing in how a tool ends. -/
theorem C196_reports (fs fs' : FileSystem) (h : SameProgram fs fs') (fuel : Nat) (verbose : Bool)
    (upper : Str → Str) (extract : Str → List Str → Nat → List Str) (args : List Str) :
    (∀ opts, anonRun .noLines (anonCheck .noLines) (checkInstructionsV verbose fs fuel opts args) =
      anonRun .noLines (anonCheck .noLines) (checkInstructionsV verbose fs' fuel opts args)) ∧
    (∀ details, List.Forall₂ (SameEntry .noLines details)
        ((listInstructionsV verbose fs fuel details args).1.filter (notComment .noLines))
        ((listInstructionsV verbose fs' fuel details args).1.filter (notComment .noLines)) ∧
      (listInstructionsV verbose fs fuel details args).2 =
        (listInstructionsV verbose fs' fuel details args).2) ∧
    (∀ complex, anonRun .noLines (anonSym .noLines) (checkSymbolsV verbose upper extract fs fuel complex args) =
      anonRun .noLines (anonSym .noLines) (checkSymbolsV verbose upper extract fs' fuel complex args)) ∧
    (∀ b e z x, anonRun .noLines (anonSym .noLines) (findSymbolsV verbose upper extract fs fuel b e z x args) =
      anonRun .noLines (anonSym .noLines) (findSymbolsV verbose upper extract fs' fuel b e z x args)) ∧
    anonRun .noLines (anonSym .noLines) (listSymbolsV verbose upper fs fuel args) =
      anonRun .noLines (anonSym .noLines) (listSymbolsV verbose upper fs' fuel args) ∧
    ∀ debug, anonRun .noLines (anonParse .noLines) (parseV verbose upper fs fuel debug args) =
      anonRun .noLines (anonParse .noLines) (parseV verbose upper fs' fuel debug args) :=
  have hd : ∀ files : List Str, ∀ g ∈ files, SameDeck .noLines verbose fs fs' fuel fuel g g :=
    fun _ g _ => deckV_interspersed rfl h fuel g
  ⟨fun opts => check_decks verbose opts (sameFiles (hd _)),
    fun details => list_decks verbose details rfl (sameFiles (hd _)),
    fun complex => checkSymbols_decks verbose upper extract complex (sameFiles (hd _)),
    fun b e z x => findSymbols_decks verbose upper extract b e z x rfl (sameFiles (hd _)),
    listSymbols_decks verbose upper (sameFiles (hd _)),
    fun debug => parse_decks verbose upper debug (sameFiles (hd _))⟩

/-- A program of two files. -/
def exPlainFs : FileSystem := fun g =>
  if g = py "M.A" then some (py "        START      TS           LOOP\n$S.A\n        END        XX")
  else if g = py "S.A" then some (py "        LOOP       ADDD\n") else none

/-- The same program with remarks, a comment and blank lines. -/
def exRemarkedFs : FileSystem := fun g =>
  if g = py "M.A" then
    some (py "P a page\n        START      TS           LOOP\n\n$S.A\n# note\n        END        XX\n")
  else if g = py "S.A" then some (py "R remark\n        LOOP       ADDD\n\n") else none

/-- The hypothesis of C196 is met by two programs that do not have the same line numbers. -/
example : SameProgram exPlainFs exRemarkedFs ∧
    (deckCards exPlainFs 9 (py "M.A")).map (List.map CodeCard.line) = .ok [1, 1, 3] ∧
    (deckCards exRemarkedFs 9 (py "M.A")).map (List.map CodeCard.line) =
      .ok [1, 2, 3, 1, 2, 3, 6] ∧
    (listSymbols id exPlainFs 9 [py "M.A"]).map (List.map fun l => match l with
      | .entry _ _ f n _ => some (f, n)
      | _ => none) = .ok [none, none, none, some (py "M", 3), none, none, none, some (py "S", 1),
        none, none, none, some (py "M", 1)] ∧
    (listSymbols id exRemarkedFs 9 [py "M.A"]).map (List.map fun l => match l with
      | .entry _ _ f n _ => some (f, n)
      | _ => none) = .ok [none, none, none, some (py "M", 6), none, none, none, some (py "S", 2),
        none, none, none, some (py "M", 2)] := by
  refine ⟨?_, by decide +kernel, by decide +kernel, by decide +kernel, by decide +kernel⟩
  have blank : NoCode ['\n'] := Or.inr (Or.inr blank_newline)
  intro g
  by_cases h1 : g = py "M.A"
  · subst h1
    refine Or.inr ⟨_, _, rfl, rfl, ?_⟩
    exact .put _ (Or.inr (Or.inl (Or.inl rfl))) (.line _ (.put _ blank (.line _
      (.put _ (Or.inl rfl) (.ended _ (by decide) .nil)))))
  · by_cases h2 : g = py "S.A"
    · subst h2
      refine Or.inr ⟨_, _, rfl, rfl, ?_⟩
      exact .put _ (Or.inr (Or.inl (Or.inr (Or.inl rfl)))) (.line _ (.put _ blank .nil))
    · refine Or.inl ⟨?_, ?_⟩ <;> simp [exPlainFs, exRemarkedFs, h1, h2]

end H800
