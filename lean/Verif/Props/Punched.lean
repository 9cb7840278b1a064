import Verif.Lemmas.Punched
import Verif.Props.Intersperse

/-!
Property C219: where in its field a tag or an operation is punched does not matter, nor do spaces in a
tag.
-/

namespace H800

open Spec

/-- C219: two file systems whose files have the same comments, includes and cards but for the place of
the label in columns 9 to 19, spaces put in or taken out anywhere in it, the place of the operation in
columns 20 to 32, and the columns that no tool looks into. Then every tool prints the same messages in
the same order, with or without `--verbose`: the same tags are defined at the same places, the same
errors are found, the counts are the same. Only the texts shown of lines, log numbers, operands and the
spaces in the labels of cards may be others. And it ends in the same way. -/
theorem C219_reports (fs fs' : FileSystem) (h : SamePunches fs fs') (fuel : Nat) (verbose : Bool)
    (upper : Str → Str) (extract : Str → List Str → Nat → List Str) (args : List Str) :
    (∀ opts, anonRun .noBlanks (anonCheck .noBlanks) (checkInstructionsV verbose fs fuel opts args) =
      anonRun .noBlanks (anonCheck .noBlanks) (checkInstructionsV verbose fs' fuel opts args)) ∧
    (∀ details, List.Forall₂ (SameEntry .noBlanks details)
        (listInstructionsV verbose fs fuel details args).1
        (listInstructionsV verbose fs' fuel details args).1 ∧
      (listInstructionsV verbose fs fuel details args).2 =
        (listInstructionsV verbose fs' fuel details args).2) ∧
    (∀ complex,
      anonRun .noBlanks (anonSym .noBlanks) (checkSymbolsV verbose upper extract fs fuel complex args) =
        anonRun .noBlanks (anonSym .noBlanks)
          (checkSymbolsV verbose upper extract fs' fuel complex args)) ∧
    (∀ b e z x,
      anonRun .noBlanks (anonSym .noBlanks) (findSymbolsV verbose upper extract fs fuel b e z x args) =
        anonRun .noBlanks (anonSym .noBlanks)
          (findSymbolsV verbose upper extract fs' fuel b e z x args)) ∧
    anonRun .noBlanks (anonSym .noBlanks) (listSymbolsV verbose upper fs fuel args) =
      anonRun .noBlanks (anonSym .noBlanks) (listSymbolsV verbose upper fs' fuel args) ∧
    ∀ debug, anonRun .noBlanks (anonParse .noBlanks) (parseV verbose upper fs fuel debug args) =
      anonRun .noBlanks (anonParse .noBlanks) (parseV verbose upper fs' fuel debug args) :=
  have hd : ∀ files : List Str, ∀ g ∈ files, SameDeck .noBlanks verbose fs fs' fuel fuel g g :=
    fun _ g _ => deckV_punched h fuel g
  have all : ∀ l : List (VMsg Str), l.filter (notComment .noBlanks) = l := fun l =>
    List.filter_eq_self.2 fun m _ => by cases m <;> rfl
  ⟨fun opts => check_decks verbose opts (sameFiles (hd _)),
    fun details => by
      have := list_decks verbose details (args := args) (kp := .noBlanks) (fs := fs) (fs' := fs') rfl
        (sameFiles (hd _))
      rwa [all, all] at this,
    fun complex => checkSymbols_decks verbose upper extract complex (sameFiles (hd _)),
    fun b e z x => findSymbols_decks verbose upper extract b e z x rfl (sameFiles (hd _)),
    listSymbols_decks verbose upper (sameFiles (hd _)),
    fun debug => parse_decks verbose upper debug (sameFiles (hd _))⟩

/-- A program with a label and an operation punched in the given ways. -/
def exPunchFs (label op : Str) : FileSystem := fun g =>
  if g = py "M.A" then some (py "        " ++ label ++ op ++ py "A,B\nR  REMARK\n        ONE        TX")
  else none

/-- The hypothesis of C219 is met by a program and the same one with a label spread over its field and
an operation shifted; the labels of the cards differ, the tag they define is the same. -/
example : SamePunches (exPunchFs (py "START      ") (py "TS           "))
      (exPunchFs (py "  S T ART  ") (py "     TS      ")) ∧
    (deckCards (exPunchFs (py "START      ") (py "TS           ")) 9 (py "M.A")).map
        (List.map fun c => (c.label, c.operation)) =
      .ok [(some (py "START"), some (py "TS")), (none, none), (some (py "ONE"), some (py "TX"))] ∧
    (deckCards (exPunchFs (py "  S T ART  ") (py "     TS      ")) 9 (py "M.A")).map
        (List.map fun c => (c.label, c.operation)) =
      .ok [(some (py "S T ART"), some (py "TS")), (none, none), (some (py "ONE"), some (py "TX"))] := by
  refine ⟨?_, by decide +kernel, by decide +kernel⟩
  intro g
  by_cases h1 : g = py "M.A"
  · subst h1
    refine Or.inr ⟨_, _, rfl, rfl, ?_⟩
    refine .cons ?_ (.cons ?_ (.cons ?_ .nil))
    · refine .card _ _ (by decide) (by decide) (by decide) (by decide) fun _ => ⟨by decide +kernel, ?_⟩
      refine ⟨py "TS", [], py "           ", py "     ", py "      ", ?_, ?_, ?_, ?_, ?_, ?_⟩
      · intro c hc; cases hc
      · unfold Spaces; decide
      · unfold Spaces; decide
      · unfold Spaces; decide
      · decide +kernel
      · decide +kernel
    · refine .card _ _ (by decide) (by decide) rfl rfl fun h => absurd (Or.inr (Or.inl rfl)) h
    · refine .card _ _ (by decide) (by decide) rfl rfl fun _ => ⟨rfl, _, [], [], [], [], ?_, ?_, ?_, ?_,
        by simp only [List.nil_append, List.append_nil]; rfl, by simp only [List.nil_append, List.append_nil]⟩ <;>
        (intro c hc; cases hc)
  · refine Or.inl ⟨?_, ?_⟩ <;> simp [exPunchFs, h1]

end H800
