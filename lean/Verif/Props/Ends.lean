import Verif.Props.Verbose
import Verif.Props.Trace

/-!
Properties C138 and C147, how the tools end: the two models of each tool, one with the results only and
one with all that has been printed, end in the same way, with the same exception if there is one.
-/

namespace H800

open Spec

/-- How a result ends. -/
def endOf {α : Type} (r : Py α) : Py Unit := r.map fun _ => ()

theorem buildAll_run (upper : Str → Str) (fs : FileSystem) (fuel : Nat) (announce : Bool)
    (files : List Str) (t : Symtab) (l : List Nat) (n : Nat) :
    (∀ e, (buildFilesRun upper fs fuel announce files t n).2.2.2 = .error e →
      files.foldlM (fun r f => do
        let b ← buildSymbolTable upper fs fuel f r.1
        return (b.symtab, r.2.1 ++ [b.errcount], r.2.2 + b.errcount)) (t, l, n) =
          Except.error (ε := PyErr) e) ∧
    ((buildFilesRun upper fs fuel announce files t n).2.2.2 = .ok () → ∃ l',
      files.foldlM (fun r f => do
        let b ← buildSymbolTable upper fs fuel f r.1
        return (b.symtab, r.2.1 ++ [b.errcount], r.2.2 + b.errcount)) (t, l, n) =
          Except.ok (ε := PyErr) ((buildFilesRun upper fs fuel announce files t n).2.1, l',
            (buildFilesRun upper fs fuel announce files t n).2.2.1)) := by
  induction files generalizing t l n with
  | nil => exact ⟨fun e h => (by cases h), fun _ => ⟨l, rfl⟩⟩
  | cons f files ih =>
    rw [List.foldlM_cons, buildFilesRun, buildRun_eq]
    rcases buildRun upper fs fuel f t with ⟨b, e | ⟨⟩⟩
    · exact ⟨fun e' h => (by cases h; rfl), fun h => (by cases h)⟩
    · obtain ⟨i1, i2⟩ := ih b.symtab (l ++ [b.errcount]) (n + b.errcount)
      exact ⟨fun e h => i1 e h, fun h => i2 h⟩

/-- C147: check-symbols, find-symbols and list-symbols end in the same way in both models, whatever the
arguments: normally, or with the same exception. -/
theorem C147_ends (upper : Str → Str) (extract : Str → List Str → Nat → List Str) (fs : FileSystem)
    (fuel : Nat) (args : List Str) :
    (∀ complex, (checkSymbolsRun upper extract fs fuel complex args).2 =
      endOf (checkSymbols upper extract fs fuel complex args)) ∧
    (∀ b e z x, (findSymbolsRun upper extract fs fuel b e z x args).2 =
      endOf (findSymbols upper extract fs fuel b e z x args)) ∧
    (listSymbolsRun upper fs fuel args).2 = endOf (listSymbols upper fs fuel args) := by
  refine ⟨fun complex => ?_, fun b e z x => ?_, ?_⟩
  · unfold checkSymbolsRun checkSymbols buildAll
    split
    · rfl
    · obtain ⟨h1, h2⟩ := buildAll_run upper fs fuel true args [] [] 0
      generalize buildFilesRun upper fs fuel true args [] 0 = p at h1 h2
      obtain ⟨o, t, n, e | ⟨⟩⟩ := p
      · rw [h1 e rfl]; rfl
      · obtain ⟨l, h2⟩ := h2 rfl
        rw [h2]; rfl
  · unfold findSymbolsRun findSymbols buildAll
    split
    · rfl
    · match args with
      | [] => rfl
      | [_] => rfl
      | s :: f :: files =>
        obtain ⟨h1, h2⟩ := buildAll_run upper fs fuel true (f :: files) [] [] 0
        simp only
        generalize buildFilesRun upper fs fuel true (f :: files) [] 0 = p at h1 h2
        obtain ⟨o, t, n, e | ⟨⟩⟩ := p
        · rw [h1 e rfl]; rfl
        · obtain ⟨l, h2⟩ := h2 rfl
          rw [h2]
          simp only [py_bind_ok]
          generalize findSymbolDef extract t s none b e z = q
          obtain ⟨r, m⟩ := q
          cases r with
          | nothing => rfl
          | names l => cases l <;> rfl
          | defs d => cases d <;> rfl
  · unfold listSymbolsRun listSymbols buildAll
    split
    · rfl
    · obtain ⟨h1, h2⟩ := buildAll_run upper fs fuel false args [] [] 0
      generalize buildFilesRun upper fs fuel false args [] 0 = p at h1 h2
      obtain ⟨o, t, n, e | ⟨⟩⟩ := p
      · rw [h1 e rfl]; rfl
      · obtain ⟨l, h2⟩ := h2 rfl
        rw [h2]
        simp only [py_bind_ok]
        cases tableLines t <;> rfl

theorem parseSymbolsRun_error {upper : Str → Str} {fs : FileSystem} {fuel : Nat} {files : List Str}
    {ec : Nat} {errs : List Nat} {ec' : Nat} {errs' : List Nat} {st : ParseState} {e : PyErr}
    (h : parseSymbolsRun upper fs fuel files st.symtab ec errs = (ec', errs', .error e)) :
    parseSymbols upper fs fuel files st = .error e := by
  induction files generalizing st ec errs with
  | nil => cases h
  | cons f files ih =>
    unfold parseSymbols
    rw [List.foldlM_cons]
    rw [parseSymbolsRun] at h
    cases hb : buildSymbolTable upper fs fuel f st.symtab with
    | error e' => rw [hb] at h; cases h; rfl
    | ok b =>
      rw [hb] at h
      exact ih (st := { st with
        symtab := b.symtab, errcount := b.errcount, fileErrs := st.fileErrs ++ [b.errcount] }) h

/-- C138: parse ends in the same way in both models, whatever the arguments: normally, or with the same
exception. -/
theorem C138_errors (upper : Str → Str) (fs : FileSystem) (fuel : Nat) (debug : Bool)
    (args : List Str) :
    (parseRun upper fs fuel debug args).2 = endOf (parseMain upper fs fuel args) := by
  by_cases ha : args.length < 1
  · unfold parseRun parseMain
    rw [if_pos ha, if_pos ha]; rfl
  · obtain ⟨h1, h2⟩ := C138_ends upper fs fuel debug args
    cases hm : parseMain upper fs fuel args with
    | ok st =>
      obtain ⟨out, h⟩ := h1 st hm
      rw [h]; rfl
    | error e =>
      unfold parseMain at hm
      rw [if_neg ha] at hm
      rcases hp : parseSymbolsRun upper fs fuel args [] 0 [] with ⟨ec, errs, e' | ⟨⟩⟩
      · rw [parseSymbolsRun_error (st := ⟨0, 0, 0, [], []⟩) hp] at hm
        cases hm
        unfold parseRun
        rw [if_neg ha, hp]; rfl
      · obtain ⟨⟨decks, hd⟩, -⟩ := parseSymbolsRun_decks hp
        rw [parseRun_ok ha hp hd ⟨false, false, false, debug, false, false⟩ rfl] at h2
        obtain ⟨st, h⟩ := h2 _ rfl
        unfold parseMain at h
        rw [if_neg ha, hm] at h
        cases h

/-- The cases of C138 and C147 without arguments, and on a file whose include names nothing. -/
example : (parseRun asciiUpper (fun _ => some (py "$\n")) 9 false []).2 = .error .systemExit ∧
    (parseRun asciiUpper (fun _ => some (py "$\n")) 9 false [py "A.arg"]).2 = .error .indexError ∧
    (listSymbolsRun asciiUpper (fun _ => some (py "$\n")) 9 [py "A.arg"]).2 = .error .indexError := by
  decide +kernel

end H800
