import Verif.Spec.Verbose
import Verif.Lemmas.SymbolsSrc

/-! Lemmas on reading with `--verbose`. -/

namespace H800

open Spec

section
variable {α : Type} {v : Bool} {fs : FileSystem} {cls : CardClass} {width : Int} {fields : List Int}

theorem readLoopV_comment (r : Bool) (read : Str → List (VMsg α) × Py (List PunchCard)) (file : Str)
    (i : Nat) (l : Str) (ls : List Str) :
    Deck.readLoopV v fs cls width fields r read file i (('#' :: l) :: ls) =
      ((if v then [.meta_ file (i + 1)] else []) ++
        (Deck.readLoopV v fs cls width fields r read file (i + 1) ls).1,
        (Deck.readLoopV v fs cls width fields r read file (i + 1) ls).2) := by
  rw [Deck.readLoopV]
  simp [startsWith]

theorem readLoopV_include (read : Str → List (VMsg α) × Py (List PunchCard)) (file : Str)
    (i : Nat) (l : Str) (ls : List Str) :
    Deck.readLoopV v fs cls width fields true read file i (('$' :: l) :: ls) =
      match firstWord l with
      | .error e => ([], .error e)
      | .ok inc =>
        if (fs inc).isNone then ([], .error .systemExit)
        else
          match read inc with
          | (out, .error e) => (out, .error e)
          | (out, .ok icards) =>
            match Deck.readLoopV v fs cls width fields true read file (i + 1) ls with
            | (out', .error e) => (out ++ out', .error e)
            | (out', .ok cards) => (out ++ out', .ok (icards ++ cards)) := by
  rw [Deck.readLoopV]
  simp [startsWith]
  rfl

theorem readLoopV_plain (r : Bool) (read : Str → List (VMsg α) × Py (List PunchCard)) (file : Str)
    (i : Nat) (l : Str) (ls : List Str) (h1 : l.head? ≠ some '#') (h2 : l.head? ≠ some '$') :
    Deck.readLoopV v fs cls width fields r read file i (l :: ls) =
      match cls l width fields (some file) (i + 1) with
      | .error e => ([], .error e)
      | .ok c =>
        match Deck.readLoopV v fs cls width fields r read file (i + 1) ls with
        | (out, .error e) => (out, .error e)
        | (out, .ok cards) => (out, .ok (c :: cards)) := by
  rw [Deck.readLoopV]
  have e1 : startsWith l '#' = false := by
    rw [Bool.eq_false_iff]; exact fun e => h1 (startsWith_iff.1 e)
  have e2 : startsWith l '$' = false := by
    rw [Bool.eq_false_iff]; exact fun e => h2 (startsWith_iff.1 e)
  simp [e1, e2]
  rfl

/-- The cards do not depend on the option. -/
theorem readLoopV_snd {rv : Str → List (VMsg α) × Py (List PunchCard)}
    {r : Str → Py (List PunchCard)} (hr : ∀ x, (rv x).2 = r x) (file : Str) (i : Nat)
    (ls : List Str) :
    (Deck.readLoopV v fs cls width fields true rv file i ls).2 =
      Deck.readLoop fs cls width fields true r file i ls := by
  induction ls generalizing i with
  | nil => rw [Deck.readLoopV, Deck.readLoop]
  | cons l ls ih =>
    rcases line_cases l with ⟨t, rfl⟩ | ⟨t, rfl⟩ | ⟨h1, h2⟩
    · rw [readLoopV_comment, readLoop_comment, ih]
    · rw [readLoopV_include, readLoop_include]
      cases hw : firstWord t with
      | error e => rfl
      | ok inc =>
        simp only [py_bind_ok]
        by_cases hn : (fs inc).isNone
        · rw [if_pos hn, if_pos hn]
        · rw [if_neg hn, if_neg hn]
          have e := hr inc
          have e2 := ih (i + 1)
          generalize Deck.readLoopV v fs cls width fields true rv file (i + 1) ls = q at e2
          generalize rv inc = p at e
          obtain ⟨o, p⟩ := p
          obtain ⟨o', q⟩ := q
          simp only at e e2
          rw [← e, ← e2]
          cases p with
          | error e => rfl
          | ok a =>
            cases q with
            | error e => rfl
            | ok b => rfl
    · rw [readLoopV_plain _ _ _ _ _ _ h1 h2, readLoop_plain _ _ _ _ _ _ h1 h2]
      cases cls l width fields (some file) (i + 1) with
      | error e => rfl
      | ok c =>
        have e2 := ih (i + 1)
        generalize Deck.readLoopV v fs cls width fields true rv file (i + 1) ls = q at e2
        obtain ⟨o', q⟩ := q
        simp only at e2
        rw [← e2]
        cases q with
        | error e => rfl
        | ok b => rfl

theorem readSourceV_snd (fuel : Nat) (file : Str) :
    (Deck.readSourceV (α := α) v fs cls width fields fuel true file).2 =
      Deck.readSource fs cls width fields fuel true file := by
  induction fuel generalizing file with
  | zero => rfl
  | succ fuel ih =>
    rw [Deck.readSourceV, Deck.readSource]
    cases fs file with
    | none => rfl
    | some text => exact readLoopV_snd ih file 0 (readlines text)

/-- All that is printed while reading is printed because of the option. -/
def OnlyNotes (v : Bool) (out : List (VMsg α)) : Prop :=
  ∀ x ∈ out, v = true ∧ ((∃ f, x = .reading f) ∨ ∃ f n, x = .meta_ f n)

theorem onlyNotes_nil : OnlyNotes (α := α) v [] := fun _ h => nomatch h

theorem onlyNotes_append {a b : List (VMsg α)} (ha : OnlyNotes v a) (hb : OnlyNotes v b) :
    OnlyNotes v (a ++ b) := by
  intro x hx
  rcases List.mem_append.1 hx with h | h
  · exact ha x h
  · exact hb x h

theorem onlyNotes_if {x : VMsg α} (h : (∃ f, x = .reading f) ∨ ∃ f n, x = .meta_ f n) :
    OnlyNotes v (if v then [x] else []) := by
  intro y hy
  cases v with
  | false => cases hy
  | true =>
    rw [if_pos rfl, List.mem_singleton] at hy
    rw [hy]
    exact ⟨rfl, h⟩

theorem readLoopV_notes {rv : Str → List (VMsg α) × Py (List PunchCard)}
    (hr : ∀ x, OnlyNotes v (rv x).1) (file : Str) (i : Nat) (ls : List Str) :
    OnlyNotes v (Deck.readLoopV v fs cls width fields true rv file i ls).1 := by
  induction ls generalizing i with
  | nil => rw [Deck.readLoopV]; exact onlyNotes_nil
  | cons l ls ih =>
    rcases line_cases l with ⟨t, rfl⟩ | ⟨t, rfl⟩ | ⟨h1, h2⟩
    · rw [readLoopV_comment]
      exact onlyNotes_append (onlyNotes_if (Or.inr ⟨_, _, rfl⟩)) (ih _)
    · rw [readLoopV_include]
      cases hw : firstWord t with
      | error e => exact onlyNotes_nil
      | ok inc =>
        simp only
        by_cases hn : (fs inc).isNone
        · rw [if_pos hn]; exact onlyNotes_nil
        · rw [if_neg hn]
          have e := hr inc
          have e2 := ih (i + 1)
          generalize Deck.readLoopV v fs cls width fields true rv file (i + 1) ls = q at e2
          generalize rv inc = p at e
          obtain ⟨o, p⟩ := p
          obtain ⟨o', q⟩ := q
          cases p with
          | error _ => exact e
          | ok a =>
            cases q with
            | error _ => exact onlyNotes_append e e2
            | ok b => exact onlyNotes_append e e2
    · rw [readLoopV_plain _ _ _ _ _ _ h1 h2]
      cases cls l width fields (some file) (i + 1) with
      | error e => exact onlyNotes_nil
      | ok c =>
        have e2 := ih (i + 1)
        generalize Deck.readLoopV v fs cls width fields true rv file (i + 1) ls = q at e2
        obtain ⟨o', q⟩ := q
        cases q with
        | error e => exact e2
        | ok b => exact e2

theorem readSourceV_notes (fuel : Nat) (file : Str) :
    OnlyNotes v (Deck.readSourceV (α := α) v fs cls width fields fuel true file).1 := by
  induction fuel generalizing file with
  | zero => exact onlyNotes_nil
  | succ fuel ih =>
    rw [Deck.readSourceV]
    cases fs file with
    | none => exact onlyNotes_nil
    | some text =>
      exact onlyNotes_append (onlyNotes_if (Or.inl ⟨_, rfl⟩)) (readLoopV_notes ih file 0 _)

/-- How a note is printed. -/
def noteMsg : Note → VMsg α
  | .reading f => .reading f
  | .comment f n => .meta_ f n

theorem extra_noteMsg (n : Note) : extra (noteMsg (α := α) n) = some (.note n) := by
  cases n <;> rfl

theorem extras_notes (m : List Note) :
    (m.map (noteMsg (α := α))).filterMap extra = m.map .note := by
  induction m with
  | nil => rfl
  | cons n m ih => rw [List.map_cons, List.filterMap_cons, extra_noteMsg, ih]; rfl

/-- What is printed is what is told, unless the interpreter ran out of stack. -/
def Telling {β : Type} (fs : FileSystem) (file : Str) (i : Nat) (ls : List Str)
    (p : List (VMsg α) × Py β) : Prop :=
  p.2 = .error .recursionError ∨
  ∃ m d, Tell fs file i ls d m ∧ p.1 = m.map noteMsg ∧ (d = true ↔ ∃ x, p.2 = .ok x)

/-- The same for a file. -/
def TellsAll {β : Type} (fs : FileSystem) (file : Str) (p : List (VMsg α) × Py β) : Prop :=
  fs file ≠ none → p.2 = .error .recursionError ∨
  ∃ m d, Tells fs file d m ∧ p.1 = m.map noteMsg ∧ (d = true ↔ ∃ x, p.2 = .ok x)

theorem readLoopV_tell (ht : Total cls width fields)
    {rv : Str → List (VMsg α) × Py (List PunchCard)} (hr : ∀ x, TellsAll fs x (rv x))
    (file : Str) (i : Nat) (ls : List Str) :
    Telling fs file (i + 1) ls (Deck.readLoopV true fs cls width fields true rv file i ls) := by
  induction ls generalizing i with
  | nil => exact Or.inr ⟨[], true, .nil _ _, by rw [Deck.readLoopV]; rfl, by rw [Deck.readLoopV]; simp⟩
  | cons l ls ih =>
    rcases line_cases l with ⟨t, rfl⟩ | ⟨t, rfl⟩ | ⟨h1, h2⟩
    · rw [readLoopV_comment]
      rcases ih (i + 1) with h | ⟨m, d, h1, h2, h3⟩
      · exact Or.inl h
      · exact Or.inr ⟨_, d, .comment h1, by rw [h2]; rfl, h3⟩
    · rw [readLoopV_include]
      cases hw : firstWord t with
      | error e =>
        exact Or.inr ⟨[], false, .nameless (firstWord_error hw).2, rfl, by simp⟩
      | ok inc =>
        simp only
        cases hn : fs inc with
        | none =>
          exact Or.inr ⟨[], false, .missing (firstWord_ok.1 hw) hn, rfl, by simp⟩
        | some text =>
          rw [if_neg (by simp)]
          have e := hr inc (by rw [hn]; simp)
          have e2 := ih (i + 1)
          generalize Deck.readLoopV true fs cls width fields true rv file (i + 1) ls = q at e2
          generalize rv inc = p at e
          obtain ⟨o, p⟩ := p
          obtain ⟨o', q⟩ := q
          rcases e with e | ⟨m, d, ⟨text', m', hf, hm, rfl⟩, h2, h3⟩
          · simp only at e
            rw [e]
            exact Or.inl rfl
          · rw [hn] at hf
            cases hf
            simp only at h2 h3
            cases p with
            | error err =>
              have hd : d = false := by
                cases d with
                | false => rfl
                | true => obtain ⟨x, hx⟩ := h3.1 rfl; cases hx
              subst hd
              exact Or.inr ⟨_, false, .inside (firstWord_ok.1 hw) hn hm, h2, by simp⟩
            | ok a =>
              obtain rfl : d = true := h3.2 ⟨a, rfl⟩
              rcases e2 with e2 | ⟨n, d, k1, k2, k3⟩
              · simp only at e2
                rw [e2]
                exact Or.inl rfl
              · simp only at k2 k3
                refine Or.inr ⟨_, d, .incl (firstWord_ok.1 hw) hn hm k1, ?_, ?_⟩
                · cases q <;> (simp only; rw [h2, k2, ← List.map_append])
                · rw [k3]
                  cases q <;> simp
    · rw [readLoopV_plain _ _ _ _ _ _ h1 h2]
      obtain ⟨c, hc⟩ := ht l (some file) (i + 1) h1
      have hc' : cls l width fields (some file) ((i : Int) + 1) = .ok c := by exact_mod_cast hc
      rw [hc']
      have e2 := ih (i + 1)
      generalize Deck.readLoopV true fs cls width fields true rv file (i + 1) ls = q at e2
      obtain ⟨o', q⟩ := q
      rcases e2 with e2 | ⟨n, d, k1, k2, k3⟩
      · simp only at e2
        rw [e2]
        exact Or.inl rfl
      · simp only at k2 k3
        refine Or.inr ⟨n, d, .plain h1 h2 k1, ?_, ?_⟩
        · cases q <;> exact k2
        · rw [k3]
          cases q <;> simp

theorem readSourceV_tell (ht : Total cls width fields) (fuel : Nat) (file : Str) :
    TellsAll fs file (Deck.readSourceV (α := α) true fs cls width fields fuel true file) := by
  induction fuel generalizing file with
  | zero => exact fun _ => Or.inl rfl
  | succ fuel ih =>
    rw [Deck.readSourceV]
    intro hn
    cases hf : fs file with
    | none => exact absurd hf hn
    | some text =>
      rcases readLoopV_tell ht ih file 0 (readlines text) with h | ⟨m, d, h1, h2, h3⟩
      · exact Or.inl h
      · exact Or.inr ⟨_, d, ⟨text, m, hf, h1, rfl⟩, by simp only; rw [h2]; rfl, h3⟩

end

theorem deckCardsV_nil {α : Type} (v : Bool) (fs : FileSystem) (fuel : Nat) :
    deckCardsV (α := α) v fs fuel [] = ([], .error .typeError) := rfl

/-- A deck with the option: the same cards, and only notes are printed. -/
theorem deckCardsV_snd {α : Type} (v : Bool) (fs : FileSystem) (fuel : Nat) (file : Str) :
    (deckCardsV (α := α) v fs fuel file).2 = deckCards fs fuel file := by
  cases file with
  | nil => rfl
  | cons c cs =>
    have h := readSourceV_snd (α := α) (v := v) (fs := fs) (cls := argusClass)
      (width := DEFAULT_WIDTH) (fields := DEFAULT_FIELDS) fuel (c :: cs)
    unfold deckCardsV deckCards ArgusDeck.init Deck.init
    simp only
    rw [← h]
    generalize Deck.readSourceV (α := α) v fs argusClass DEFAULT_WIDTH DEFAULT_FIELDS fuel true
      (c :: cs) = p
    obtain ⟨o, p⟩ := p
    cases p with
    | error e => rfl
    | ok cards =>
      simp only [py_bind_ok]
      cases Deck.collect (cards.map (·.line)) cards with
      | error e => rfl
      | ok d =>
        simp only [py_bind_ok]
        cases ArgusDeck.findLog d.cards with
        | error e => rfl
        | ok l => rfl

theorem deckCardsV_fst {α : Type} (v : Bool) (fs : FileSystem) (fuel : Nat) (c : Char) (cs : Str) :
    (deckCardsV (α := α) v fs fuel (c :: cs)).1 =
      (Deck.readSourceV v fs argusClass DEFAULT_WIDTH DEFAULT_FIELDS fuel true (c :: cs)).1 := by
  unfold deckCardsV
  simp only
  generalize Deck.readSourceV (α := α) v fs argusClass DEFAULT_WIDTH DEFAULT_FIELDS fuel true
      (c :: cs) = p
  obtain ⟨o, p⟩ := p
  cases p <;> rfl

theorem deckCardsV_notes {α : Type} (v : Bool) (fs : FileSystem) (fuel : Nat) (file : Str) :
    OnlyNotes v (deckCardsV (α := α) v fs fuel file).1 := by
  cases file with
  | nil => exact onlyNotes_nil
  | cons c cs => rw [deckCardsV_fst]; exact readSourceV_notes _ _

/-- What is told, and how reading ends. -/
theorem deckCardsV_tell {α : Type} (fs : FileSystem) (fuel : Nat) (file : Str)
    (hne : file ≠ []) : TellsAll fs file (deckCardsV (α := α) true fs fuel file) := by
  obtain ⟨c, cs, rfl⟩ := List.exists_cons_of_ne_nil hne
  have h := readSourceV_tell (α := α) (fs := fs) total_argus fuel (c :: cs)
  intro hn
  have e1 := deckCardsV_fst (α := α) true fs fuel c cs
  have e2 := deckCardsV_snd (α := α) true fs fuel (c :: cs)
  have e3 := readSourceV_snd (α := α) (v := true) (fs := fs) (cls := argusClass)
      (width := DEFAULT_WIDTH) (fields := DEFAULT_FIELDS) fuel (c :: cs)
  rcases h hn with h | ⟨m, d, h1, h2, h3⟩
  · rw [h] at e3
    refine Or.inl ?_
    rw [e2]
    unfold deckCards ArgusDeck.init Deck.init
    simp only [← e3, py_bind_error]
  · refine Or.inr ⟨m, d, h1, e1.trans h2, ?_⟩
    rw [h3, e2, e3]
    constructor
    · rintro ⟨cards, hr⟩
      obtain ⟨out, k1, k2⟩ := readSource_sound hr
      exact ⟨_, deckCards_of_read k1 k2 hr⟩
    · rintro ⟨cards, hr⟩
      cases hs : Deck.readSource fs argusClass DEFAULT_WIDTH DEFAULT_FIELDS fuel true (c :: cs) with
      | ok x => exact ⟨x, rfl⟩
      | error e =>
        unfold deckCards ArgusDeck.init Deck.init at hr
        simp only [hs, py_bind_error] at hr
        cases hr

end H800
