import Verif.Lemmas.Unread
import Verif.Props.Intersperse

/-!
Property C202: what stands in the columns that no tool looks into changes only the texts shown.
-/

namespace H800

open Spec

/-- C202: two file systems whose files have the same comments, includes and cards but for the columns
that no tool looks into: log numbers (columns 2 to 7), operands (33 to 75), and all that is behind them.
Then every tool prints the same messages in the same order, with or without `--verbose`: the same
errors about the same symbols and instructions, the same numbers and counts, the same places with their
line numbers. Only the texts of lines, the log numbers and the operands in the messages may be others.
And it ends in the same way. -/
theorem C202_reports (fs fs' : FileSystem) (h : SameFronts fs fs') (fuel : Nat) (verbose : Bool)
    (upper : Str → Str) (extract : Str → List Str → Nat → List Str) (args : List Str) :
    (∀ opts, anonRun .noTexts (anonCheck .noTexts) (checkInstructionsV verbose fs fuel opts args) =
      anonRun .noTexts (anonCheck .noTexts) (checkInstructionsV verbose fs' fuel opts args)) ∧
    (∀ details, List.Forall₂ (SameEntry .noTexts details)
        (listInstructionsV verbose fs fuel details args).1
        (listInstructionsV verbose fs' fuel details args).1 ∧
      (listInstructionsV verbose fs fuel details args).2 =
        (listInstructionsV verbose fs' fuel details args).2) ∧
    (∀ complex,
      anonRun .noTexts (anonSym .noTexts) (checkSymbolsV verbose upper extract fs fuel complex args) =
        anonRun .noTexts (anonSym .noTexts)
          (checkSymbolsV verbose upper extract fs' fuel complex args)) ∧
    (∀ b e z x,
      anonRun .noTexts (anonSym .noTexts) (findSymbolsV verbose upper extract fs fuel b e z x args) =
        anonRun .noTexts (anonSym .noTexts)
          (findSymbolsV verbose upper extract fs' fuel b e z x args)) ∧
    anonRun .noTexts (anonSym .noTexts) (listSymbolsV verbose upper fs fuel args) =
      anonRun .noTexts (anonSym .noTexts) (listSymbolsV verbose upper fs' fuel args) ∧
    ∀ debug, anonRun .noTexts (anonParse .noTexts) (parseV verbose upper fs fuel debug args) =
      anonRun .noTexts (anonParse .noTexts) (parseV verbose upper fs' fuel debug args) :=
  have hd : ∀ files : List Str, ∀ g ∈ files, SameDeck .noTexts verbose fs fs' fuel fuel g g :=
    fun _ g _ => deckV_front h fuel g
  have all : ∀ l : List (VMsg Str), l.filter (notComment .noTexts) = l := fun l =>
    List.filter_eq_self.2 fun m _ => by cases m <;> rfl
  ⟨fun opts => check_decks verbose opts (sameFiles (hd _)),
    fun details => by
      have := list_decks verbose details (args := args) (kp := .noTexts) (fs := fs) (fs' := fs') rfl (sameFiles (hd _))
      rwa [all, all] at this,
    fun complex => checkSymbols_decks verbose upper extract complex (sameFiles (hd _)),
    fun b e z x => findSymbols_decks verbose upper extract b e z x rfl (sameFiles (hd _)),
    listSymbols_decks verbose upper (sameFiles (hd _)),
    fun debug => parse_decks verbose upper debug (sameFiles (hd _))⟩

/-- A program, and the same one with other operands, log numbers and remarks. -/
def exFrontFs (log op : Str) : FileSystem := fun g =>
  if g = py "M.A" then
    some (py " " ++ log ++ py " START      TS           " ++ op ++ py "\nR" ++ op ++ py "\n# " ++ op ++
      py "\n        2END       XX")
  else none

/-- The hypothesis of C202 is met by two programs that differ in their operands, log numbers and
remarks; a definition has another text and log number in them. -/
example : SameFronts (exFrontFs (py "000123") (py "LOOP,3")) (exFrontFs (py "A-7   ") (py "X")) ∧
    (deckCards (exFrontFs (py "000123") (py "LOOP,3")) 9 (py "M.A")).map
        (List.map fun c => (c.lognum, c.label, c.addressa)) =
      .ok [(some (py "000123"), some (py "START"), some (py "LOOP,3")), (some (py "LOOP,3"), none, none),
        (none, some (py "2END"), none)] ∧
    (deckCards (exFrontFs (py "A-7   ") (py "X")) 9 (py "M.A")).map
        (List.map fun c => (c.lognum, c.label, c.addressa)) =
      .ok [(some (py "A-7"), some (py "START"), some (py "X")), (some (py "X"), none, none),
        (none, some (py "2END"), none)] := by
  refine ⟨?_, by decide +kernel, by decide +kernel⟩
  intro g
  by_cases h1 : g = py "M.A"
  · subst h1
    refine Or.inr ⟨_, _, rfl, rfl, ?_⟩
    have front : ∀ {l l' : Str}, columnAt l 1 ≠ '#' → columnAt l 1 ≠ '$' →
        columnAt l 1 = columnAt l' 1 → (∀ i : Fin 33, 8 ≤ i.val → columnAt l i = columnAt l' i) →
        SameFront l l' := fun a b c d => .card _ _ a b fun i hi => by
      rcases hi with rfl | rfl | ⟨-, h8, h32⟩
      · exact c
      · exact d ⟨8, by omega⟩ (by decide)
      · exact d ⟨i, by omega⟩ (by show 8 ≤ i; omega)
    refine .cons (front (by decide) (by decide) (by decide) (by decide +kernel)) (.cons ?_ (.cons ?_ (.cons ?_ .nil)))
    · refine .card _ _ (by decide) (by decide) fun i hi => ?_
      rcases hi with rfl | rfl | ⟨h, -⟩
      · decide
      · decide
      · exact absurd (Or.inr (Or.inl rfl)) h
    · exact .comment _ _
    · exact front (by decide) (by decide) (by decide) (by decide +kernel)
  · refine Or.inl ⟨?_, ?_⟩ <;> simp [exFrontFs, h1]

end H800
