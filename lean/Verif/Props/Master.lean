import Verif.Lemmas.Tools
import Verif.Lemmas.Reread

/-!
Property C141: a file of include lines stands for the files it names.
-/

namespace H800

open Spec

namespace Spec

/-- `master` is a file of comments and of include lines naming the files, in this order. -/
def Master (fs : Str → Option Str) (master : Str) (files : List Str) : Prop :=
  ∃ text, fs master = some text ∧
    List.Forall₂ (fun l name => ∃ r, l = '$' :: r ∧ Word1 r name)
      ((readlines text).filter fun l => l.head? ≠ some '#') files

end Spec

/-! ### Auxiliary facts -/

theorem readLoop_master {fs : FileSystem} {cls : CardClass} {width : Int} {fields : List Int}
    {fuel : Nat} {file : Str} {ls names : List Str}
    (h : List.Forall₂ (fun l name => ∃ r, l = '$' :: r ∧ Word1 r name)
      (ls.filter fun l => l.head? ≠ some '#') names) (i : Nat) :
    Deck.readLoop fs cls width fields true (Deck.readSource fs cls width fields (fuel + 1) true) file i
        ls =
      (do return (← names.mapM (Deck.readSource fs cls width fields (fuel + 1) true)).flatten) := by
  induction ls generalizing i names with
  | nil => cases h; rfl
  | cons l ls ih =>
    by_cases hl : l.head? = some '#'
    · rw [List.filter_cons, if_neg (by simp [hl])] at h
      obtain ⟨u, rfl⟩ : ∃ u, l = '#' :: u := by
        cases l with
        | nil => cases hl
        | cons c u => cases hl; exact ⟨u, rfl⟩
      rw [readLoop_comment]
      exact ih h _
    · rw [List.filter_cons, if_pos (by simpa using hl)] at h
      cases h with
      | @cons _ name _ names h1 h2 =>
        obtain ⟨r, rfl, hw⟩ := h1
        rw [readLoop_include, firstWord_ok.2 hw, py_bind_ok, ih h2, List.mapM_cons]
        by_cases hn : (fs name).isNone = true
        · rw [if_pos hn]
          have : fs name = none := by simpa using hn
          rw [Deck.readSource, this]
          rfl
        · rw [if_neg hn]
          cases Deck.readSource fs cls width fields (fuel + 1) true name with
          | error e => rfl
          | ok cs =>
            simp only [py_bind_ok]
            cases names.mapM (Deck.readSource fs cls width fields (fuel + 1) true) with
            | error e => rfl
            | ok css => rfl

theorem deckCards_direct (fs : FileSystem) (fuel : Nat) {file : Str} (hf : file ≠ []) :
    (∃ e, Deck.readSource fs argusClass DEFAULT_WIDTH DEFAULT_FIELDS fuel true file = .error e ∧
      deckCards fs fuel file = .error e) ∨
    ∃ cards cs, Deck.readSource fs argusClass DEFAULT_WIDTH DEFAULT_FIELDS fuel true file = .ok cards ∧
      cards.mapM codeCard = .ok cs ∧ deckCards fs fuel file = .ok cs := by
  obtain ⟨c, file, rfl⟩ := List.exists_cons_of_ne_nil hf
  cases hr : Deck.readSource fs argusClass DEFAULT_WIDTH DEFAULT_FIELDS fuel true (c :: file) with
  | error e =>
    refine Or.inl ⟨e, rfl, ?_⟩
    unfold deckCards ArgusDeck.init Deck.init
    simp only [hr, py_bind_error]
  | ok cards =>
    obtain ⟨out, h1, h2⟩ := readSource_sound hr
    exact Or.inr ⟨cards, _, rfl, (findLog_ok (expands_ne h1) h2).2, deckCards_of_read h1 h2 hr⟩

theorem mapM_decks (fs : FileSystem) (fuel : Nat) {files : List Str} (hne : ∀ f ∈ files, f ≠ []) :
    (∃ e, files.mapM (Deck.readSource fs argusClass DEFAULT_WIDTH DEFAULT_FIELDS fuel true) = .error e ∧
      files.mapM (deckCards fs fuel) = .error e) ∨
    ∃ cards cs, files.mapM (Deck.readSource fs argusClass DEFAULT_WIDTH DEFAULT_FIELDS fuel true) =
        .ok cards ∧ cards.flatten.mapM codeCard = .ok cs.flatten ∧
      files.mapM (deckCards fs fuel) = .ok cs := by
  induction files with
  | nil => exact Or.inr ⟨[], [], rfl, rfl, rfl⟩
  | cons f files ih =>
    rw [List.mapM_cons, List.mapM_cons]
    rcases deckCards_direct fs fuel (hne f List.mem_cons_self) with ⟨e, h1, h2⟩ | ⟨cards, cs, h1, h2, h3⟩
    · exact Or.inl ⟨e, by rw [h1]; rfl, by rw [h2]; rfl⟩
    · rcases ih fun g hg => hne g (List.mem_cons_of_mem _ hg) with ⟨e, k1, k2⟩ | ⟨cards', cs', k1, k2, k3⟩
      · exact Or.inl ⟨e, by rw [h1, k1]; rfl, by rw [h3, k2]; rfl⟩
      · refine Or.inr ⟨cards :: cards', cs :: cs', by rw [h1, k1]; rfl, ?_, by rw [h3, k3]; rfl⟩
        rw [List.flatten_cons, List.flatten_cons]
        exact mapM_append_ok.2 ⟨_, _, h2, k2, rfl⟩

theorem deckCards_master {fs : FileSystem} {fuel : Nat} {master : Str} {files : List Str}
    (hm : master ≠ []) (h : Master fs master files) :
    deckCards fs (fuel + 2) master =
      (do return (← files.mapM (deckCards fs (fuel + 1))).flatten) := by
  obtain ⟨text, ht, hls⟩ := h
  have hne : ∀ f ∈ files, f ≠ [] := by
    intro f hf
    have := (List.forall₂_iff_get.1 hls)
    obtain ⟨i, hi, rfl⟩ := List.mem_iff_getElem.1 hf
    obtain ⟨r, -, hw⟩ := this.2 i (by omega) hi
    exact hw.1
  have hr : Deck.readSource fs argusClass DEFAULT_WIDTH DEFAULT_FIELDS (fuel + 2) true master =
      (do return (← files.mapM (Deck.readSource fs argusClass DEFAULT_WIDTH DEFAULT_FIELDS (fuel + 1)
        true)).flatten) := by
    rw [Deck.readSource, ht]
    exact readLoop_master hls 0
  rcases mapM_decks fs (fuel + 1) hne with ⟨e, h1, h2⟩ | ⟨cards, cs, h1, h2, h3⟩
  · rw [h1] at hr
    rw [h2]
    rcases deckCards_direct fs (fuel + 2) hm with ⟨e', k1, k2⟩ | ⟨cards', cs', k1, k2, k3⟩
    · rw [k1] at hr
      cases hr
      exact k2
    · rw [k1] at hr
      cases hr
  · rw [h1] at hr
    rw [h3]
    rcases deckCards_direct fs (fuel + 2) hm with ⟨e', k1, k2⟩ | ⟨cards', cs', k1, k2, k3⟩
    · rw [k1] at hr
      cases hr
    · rw [k1] at hr
      cases hr
      rw [h2] at k2
      cases k2
      exact k3

theorem foldFiles_flatten {σ : Type} {fs : FileSystem} {fuel : Nat} (step : σ → CodeCard → σ)
    (files : List Str) (st : σ) :
    files.foldlM (fun st f => do return (← deckCards fs fuel f).foldl step st) st =
      (do return (← files.mapM (deckCards fs fuel)).flatten.foldl step st : Py σ) := by
  induction files generalizing st with
  | nil => rfl
  | cons f files ih =>
    rw [List.foldlM_cons, List.mapM_cons]
    cases deckCards fs fuel f with
    | error e => rfl
    | ok cs =>
      rw [py_bind_ok]
      refine (ih _).trans ?_
      cases files.mapM (deckCards fs fuel) with
      | error e => rfl
      | ok css =>
        simp only [py_bind_ok, py_pure, List.flatten_cons, List.foldl_append]

/-! ### C141 -/

/-- C141: check-instructions prints for a file of include lines what it prints for the files named,
and fails with the same exception. -/
theorem C141_check (fs : FileSystem) (fuel : Nat) (opts : CheckOpts) (master : Str)
    (files : List Str) (hm : master ≠ []) (hf : files ≠ []) (h : Master fs master files) :
    checkInstructions fs (fuel + 2) opts [master] = checkInstructions fs (fuel + 1) opts files := by
  have e : checkFiles fs (fuel + 2) opts [master] CheckState.init =
      checkFiles fs (fuel + 1) opts files CheckState.init := by
    unfold checkFiles
    rw [foldFiles_flatten, foldFiles_flatten, List.mapM_cons, List.mapM_nil, deckCards_master hm h]
    cases files.mapM (deckCards fs (fuel + 1)) with
    | error e => rfl
    | ok css => simp only [py_bind_ok, py_pure, List.flatten_cons, List.flatten_nil, List.append_nil]
  have hl : ¬ files.length < 1 := by
    cases files with
    | nil => exact absurd rfl hf
    | cons f files => simp
  unfold checkInstructions
  rw [e, if_neg hl, if_neg (by simp)]

/-- C141: so does list-instructions. -/
theorem C141_list (fs : FileSystem) (fuel : Nat) (details : Bool) (opcode master : Str)
    (files : List Str) (hm : master ≠ []) (h : Master fs master files) :
    listInstructions fs (fuel + 2) details [opcode, master] =
      listInstructions fs (fuel + 1) details (opcode :: files) := by
  unfold listInstructions
  simp only
  by_cases hc : INSTRUCTIONS.contains (if opcode.contains ',' then splitFirst opcode ',' else opcode)
  · rw [if_neg (by simpa using hc), if_neg (by simpa using hc), List.mapM_cons, List.mapM_nil,
      deckCards_master hm h]
    cases files.mapM (deckCards fs (fuel + 1)) with
    | error e => rfl
    | ok css =>
      simp only [py_bind_ok, py_pure, List.flatMap_cons, List.flatMap_nil, List.append_nil]
      congr 1
      induction css with
      | nil => rfl
      | cons cs css ih =>
        rw [List.flatten_cons, List.filter_append, List.map_append, ih, List.flatMap_cons]
  · rw [if_pos (by simpa using hc), if_pos (by simpa using hc)]

/-- The example of C141. -/
def masterFs : FileSystem := fun f =>
  if f = py "ALL.arg" then some (py "# all\n$A.arg\n$ B.arg rest\n")
  else if f = py "A.arg" then some (py "                   QQ\n                   TN\n")
  else if f = py "B.arg" then some (py "                   TN,A\n")
  else none

example : Master masterFs (py "ALL.arg") [py "A.arg", py "B.arg"] := by
  refine ⟨_, rfl, ?_⟩
  rw [show (readlines (py "# all\n$A.arg\n$ B.arg rest\n")).filter (fun l => l.head? ≠ some '#') =
    [py "$A.arg\n", py "$ B.arg rest\n"] by decide]
  refine .cons ⟨_, rfl, by decide, by decide, [], py "\n", blank_nil, rfl, by decide⟩
    (.cons ⟨_, rfl, by decide, by decide, [' '], py " rest\n", by unfold Blank; decide, rfl, by decide⟩ .nil)

example : listInstructions masterFs 2 false [py "TN", py "ALL.arg"] =
      listInstructions masterFs 1 false [py "TN", py "A.arg", py "B.arg"] ∧
    (match listInstructions masterFs 2 false [py "TN", py "ALL.arg"] with
      | .ok l => l.length == 2
      | .error _ => false) = true := by decide +kernel

end H800
