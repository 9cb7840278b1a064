import Verif.Lemmas.Verbose
import Verif.Lemmas.Tools
import Verif.Lemmas.ListingTool

/-!
What `--verbose` adds to the output of the tools (C150, C151, C152).
-/

namespace H800

open Spec

/-! ### C150 -/

theorem tell_unique {fs : FileSystem} {file : Str} {i : Nat} {ls : List Str} {d : Bool}
    {m : List Note} (h : Tell fs file i ls d m) :
    ∀ d' m', Tell fs file i ls d' m' → d = d' ∧ m = m' := by
  have word : ∀ {l a b : Str}, Word1 l a → Word1 l b → a = b := by
    intro l a b ha hb
    have := (firstWord_ok.2 ha).symm.trans (firstWord_ok.2 hb)
    cases this; rfl
  have blank : ∀ {l a : Str}, Blank l → Word1 l a → False := by
    rintro l a hb ⟨h0, h1, x, r, -, rfl, -⟩
    obtain ⟨c, a, rfl⟩ := List.exists_cons_of_ne_nil h0
    have := h1 c List.mem_cons_self
    rw [hb c (by simp)] at this
    cases this
  induction h with
  | nil => intro d' m' h'; cases h'; exact ⟨rfl, rfl⟩
  | comment _ ih =>
    intro d' m' h'
    cases h' with
    | comment h' => obtain ⟨rfl, rfl⟩ := ih _ _ h'; exact ⟨rfl, rfl⟩
    | plain h1 => exact absurd rfl h1
  | incl hw hf _ _ ih1 ih2 =>
    intro d' m' h'
    cases h' with
    | incl hw' hf' h1 h2 =>
      obtain rfl := word hw hw'
      rw [hf] at hf'; cases hf'
      obtain ⟨-, rfl⟩ := ih1 _ _ h1
      obtain ⟨rfl, rfl⟩ := ih2 _ _ h2
      exact ⟨rfl, rfl⟩
    | inside hw' hf' h1 =>
      obtain rfl := word hw hw'
      rw [hf] at hf'; cases hf'
      cases (ih1 _ _ h1).1
    | missing hw' hf' =>
      obtain rfl := word hw hw'
      rw [hf] at hf'; cases hf'
    | nameless hb => exact (blank hb hw).elim
    | plain _ h1 => exact absurd rfl h1
  | inside hw hf _ ih1 =>
    intro d' m' h'
    cases h' with
    | incl hw' hf' h1 h2 =>
      obtain rfl := word hw hw'
      rw [hf] at hf'; cases hf'
      cases (ih1 _ _ h1).1
    | inside hw' hf' h1 =>
      obtain rfl := word hw hw'
      rw [hf] at hf'; cases hf'
      obtain ⟨-, rfl⟩ := ih1 _ _ h1
      exact ⟨rfl, rfl⟩
    | missing hw' hf' =>
      obtain rfl := word hw hw'
      rw [hf] at hf'; cases hf'
    | nameless hb => exact (blank hb hw).elim
    | plain _ h1 => exact absurd rfl h1
  | missing hw hf =>
    intro d' m' h'
    cases h' with
    | incl hw' hf' h1 h2 =>
      obtain rfl := word hw hw'
      rw [hf] at hf'; cases hf'
    | inside hw' hf' h1 =>
      obtain rfl := word hw hw'
      rw [hf] at hf'; cases hf'
    | missing hw' hf' => exact ⟨rfl, rfl⟩
    | nameless hb => exact (blank hb hw).elim
    | plain _ h1 => exact absurd rfl h1
  | nameless hb =>
    intro d' m' h'
    cases h' with
    | incl hw' hf' h1 h2 => exact (blank hb hw').elim
    | inside hw' hf' h1 => exact (blank hb hw').elim
    | missing hw' hf' => exact ⟨rfl, rfl⟩
    | nameless hb => exact ⟨rfl, rfl⟩
    | plain _ h1 => exact absurd rfl h1
  | plain h1 h2 _ ih =>
    intro d' m' h'
    cases h' with
    | comment h' => exact absurd rfl h1
    | incl hw' hf' _ _ => exact absurd rfl h2
    | inside hw' hf' _ => exact absurd rfl h2
    | missing hw' hf' => exact absurd rfl h2
    | nameless hb => exact absurd rfl h2
    | plain _ _ h' => exact ih _ _ h'

/-- C150: what is to be told about a file is determined by the file system. -/
theorem C150_unique (fs : FileSystem) (file : Str) (d d' : Bool) (m m' : List Note)
    (h : Tells fs file d m) (h' : Tells fs file d' m') : d = d' ∧ m = m' := by
  obtain ⟨t, n, hf, h1, rfl⟩ := h
  obtain ⟨t', n', hf', h1', rfl⟩ := h'
  rw [hf] at hf'
  cases hf'
  obtain ⟨rfl, rfl⟩ := tell_unique h1 _ _ h1'
  exact ⟨rfl, rfl⟩

/-- C150: reading a deck with `--verbose` tells the opening of each file and each comment line, in
the order in which they are met, and nothing else; if reading fails (other than by running out of
stack), it has told this much until the include line that cannot be followed. Without the option
nothing is printed, and the deck is the same. -/
theorem C150_reading {α : Type} (fs : FileSystem) (fuel : Nat) (file : Str) (hne : file ≠ []) :
    (∀ (out : List (VMsg α)) cards, deckCardsV true fs fuel file = (out, .ok cards) →
      ∃ m, Tells fs file true m ∧ out.map extra = m.map fun n => some (.note n)) ∧
    (∀ (out : List (VMsg α)) e, deckCardsV true fs fuel file = (out, .error e) →
      e ≠ .recursionError → (fs file = none ∧ out = []) ∨
      ∃ m, Tells fs file false m ∧ out.map extra = m.map fun n => some (.note n)) ∧
    ∀ v, (deckCardsV (α := α) v fs fuel file).2 = deckCards fs fuel file ∧
      (deckCardsV (α := α) false fs fuel file).1 = [] := by
  have hmap : ∀ m : List Note, (m.map (noteMsg (α := α))).map extra =
      m.map fun n => some (.note n) := by
    intro m
    rw [List.map_map]
    exact List.map_congr_left fun n _ => extra_noteMsg n
  have ht := deckCardsV_tell (α := α) fs fuel file hne
  refine ⟨fun out cards h => ?_, fun out e h he => ?_, fun v => ⟨deckCardsV_snd _ _ _ _, ?_⟩⟩
  · rw [h] at ht
    have hn : fs file ≠ none := by
      intro hn
      have := deckCardsV_snd (α := α) true fs fuel file
      rw [h] at this
      obtain ⟨-, o, ⟨t, hf, -⟩, -⟩ := deckCards_ok this.symm
      rw [hn] at hf
      cases hf
    rcases ht hn with h' | ⟨m, d, h1, h2, h3⟩
    · cases h'
    · obtain rfl : d = true := h3.2 ⟨_, rfl⟩
      exact ⟨m, h1, by rw [← hmap]; exact congrArg _ h2⟩
  · cases hn : fs file with
    | none =>
      refine Or.inl ⟨rfl, ?_⟩
      obtain ⟨c, cs, rfl⟩ := List.exists_cons_of_ne_nil hne
      have := deckCardsV_fst (α := α) true fs fuel c cs
      rw [h] at this
      simp only at this
      rw [this]
      cases fuel with
      | zero => rfl
      | succ n => rw [Deck.readSourceV, hn]
    | some t =>
      rw [h] at ht
      rcases ht (by rw [hn]; simp) with h' | ⟨m, d, h1, h2, h3⟩
      · cases h'; exact absurd rfl he
      · have hd : d = false := by
          cases d with
          | false => rfl
          | true => obtain ⟨x, hx⟩ := h3.1 rfl; cases hx
        subst hd
        exact Or.inr ⟨m, h1, by rw [← hmap]; exact congrArg _ h2⟩
  · have := deckCardsV_notes (α := α) false fs fuel file
    match hd : (deckCardsV (α := α) false fs fuel file).1 with
    | [] => rfl
    | x :: l => rw [hd] at this; cases (this x List.mem_cons_self).1

/-- C150 on a file with a comment that includes another one, which includes a file that does not
exist. -/
def tellFs : FileSystem := fun f =>
  if f = py "A" then some (py "# x\n$B\n TN\n")
  else if f = py "B" then some (py " TX\n# y\n$ C\n# z\n")
  else if f = py "D" then some (py "# x\n TN\n#\n")
  else none

example : (deckCardsV (α := Empty) true tellFs 10 (py "A")).1 =
      [.reading (py "A"), .meta_ (py "A") 1, .reading (py "B"), .meta_ (py "B") 2] ∧
    (match (deckCardsV (α := Empty) true tellFs 10 (py "A")).2 with
      | .error e => decide (e = .systemExit) | .ok _ => false) = true ∧
    (deckCardsV (α := Empty) true tellFs 10 (py "D")).1 =
      [.reading (py "D"), .meta_ (py "D") 1, .meta_ (py "D") 3] ∧
    (match (deckCardsV (α := Empty) true tellFs 10 (py "D")).2 with
      | .error _ => false | .ok cards => decide (cards.length = 1)) = true := by
  decide +kernel

/-! ### C151 -/

/-- What the option adds. -/
def Adds {α : Type} (v : Bool) (a : List (VMsg α)) (b : List α) : Prop :=
  a.filterMap usual = b ∧ (v = false → a = b.map .msg)

theorem adds_append {α : Type} {v : Bool} {a a' : List (VMsg α)} {b b' : List α} (h : Adds v a b)
    (h' : Adds v a' b') : Adds v (a ++ a') (b ++ b') := by
  refine ⟨by rw [List.filterMap_append, h.1, h'.1], fun e => ?_⟩
  rw [h.2 e, h'.2 e, List.map_append]

theorem adds_nil {α : Type} {v : Bool} : Adds (α := α) v [] [] := ⟨rfl, fun _ => rfl⟩

theorem adds_msgs {α : Type} {v : Bool} (l : List α) : Adds v (l.map .msg) l := by
  refine ⟨?_, fun _ => rfl⟩
  induction l with
  | nil => rfl
  | cons a l ih => rw [List.map_cons, List.filterMap_cons]; simp only [usual]; rw [ih]

theorem adds_notes {α : Type} {v : Bool} {out : List (VMsg α)} (h : OnlyNotes v out) :
    Adds v out [] := by
  refine ⟨?_, fun e => ?_⟩
  · induction out with
    | nil => rfl
    | cons x out ih =>
      have := (h x List.mem_cons_self).2
      rw [List.filterMap_cons, ih fun y hy => h y (List.mem_cons_of_mem _ hy)]
      rcases this with ⟨f, rfl⟩ | ⟨f, n, rfl⟩ <;> rfl
  · cases out with
    | nil => rfl
    | cons x out =>
      have := (h x List.mem_cons_self).1
      rw [e] at this
      cases this

theorem adds_starred {α : Type} (v : Bool) (c : CodeCard) :
    Adds (α := α) v (if v then [.starred c] else []) [] := by
  cases v <;> exact ⟨rfl, fun e => by cases e; try rfl⟩

/-- The variables with and without the option. -/
def CheckRel (v : Bool) (s : CheckStateV) (t : CheckState) : Prop :=
  s.errcount = t.errcount ∧ s.linecount = t.linecount ∧ s.instrcount = t.instrcount ∧
    s.instrtab = t.instrtab ∧ Adds v s.out t.out

theorem checkStepV_rel {v : Bool} (opts : CheckOpts) {s : CheckStateV} {t : CheckState}
    (h : CheckRel v s t) (c : CodeCard) : CheckRel v (checkStepV v opts s c) (checkStep opts t c) := by
  obtain ⟨h1, h2, h3, h4, h5⟩ := h
  obtain ⟨e, l, i, d, o⟩ := s
  obtain ⟨e', l', i', d', o'⟩ := t
  simp only at h1 h2 h3 h4 h5
  subst h1 h2 h3 h4
  unfold checkStepV checkStep
  cases c.instruction with
  | none => exact ⟨rfl, rfl, rfl, rfl, h5⟩
  | some i =>
    cases i with
    | nil => exact ⟨rfl, rfl, rfl, rfl, h5⟩
    | cons x xs =>
      have h6 : Adds v (if opts.printOpcodes then o ++ [.msg (.card c)] else o)
          (if opts.printOpcodes then o' ++ [.card c] else o') := by
        split
        · exact adds_append h5 (adds_msgs [_])
        · exact h5
      simp only
      split
      · refine ⟨rfl, rfl, rfl, rfl, ?_⟩
        simp only
        have := adds_append h6 (adds_starred v c)
        rw [List.append_nil] at this
        cases v with
        | true => exact this
        | false => exact h6
      · cases dget d (x :: xs) with
        | none => exact ⟨rfl, rfl, rfl, rfl, adds_append h6 (adds_msgs [_])⟩
        | some n =>
          simp only
          split
          · split
            · exact ⟨rfl, rfl, rfl, rfl, h6⟩
            · exact ⟨rfl, rfl, rfl, rfl, adds_append h6 (adds_msgs [_])⟩
          · exact ⟨rfl, rfl, rfl, rfl, h6⟩

theorem checkFold_rel {v : Bool} (opts : CheckOpts) (cards : List CodeCard) {s : CheckStateV}
    {t : CheckState} (h : CheckRel v s t) :
    CheckRel v (cards.foldl (checkStepV v opts) s) (cards.foldl (checkStep opts) t) := by
  induction cards generalizing s t with
  | nil => exact h
  | cons c cards ih => exact ih (checkStepV_rel opts h c)

theorem checkRel_notes {v : Bool} {s : CheckStateV} {t : CheckState} (h : CheckRel v s t)
    {o : List (VMsg CheckMsg)} (ho : OnlyNotes v o) : CheckRel v { s with out := s.out ++ o } t := by
  obtain ⟨h1, h2, h3, h4, h5⟩ := h
  refine ⟨h1, h2, h3, h4, ?_⟩
  have := adds_append h5 (adds_notes ho)
  rw [List.append_nil] at this
  exact this

theorem checkFilesV_rel (v : Bool) (fs : FileSystem) (fuel : Nat) (opts : CheckOpts)
    (files : List Str) {s : CheckStateV} {t : CheckState} (h : CheckRel v s t) :
    CheckRel v (checkFilesV v fs fuel opts files s).1 (checkFilesRun fs fuel opts files t).1 ∧
    (checkFilesV v fs fuel opts files s).2 = (checkFilesRun fs fuel opts files t).2 := by
  induction files generalizing s t with
  | nil => exact ⟨h, rfl⟩
  | cons f files ih =>
    have e1 := deckCardsV_snd (α := CheckMsg) v fs fuel f
    have e2 := deckCardsV_notes (α := CheckMsg) v fs fuel f
    rw [checkFilesV, checkFilesRun, ← e1]
    generalize deckCardsV (α := CheckMsg) v fs fuel f = p at e2
    obtain ⟨o, p⟩ := p
    cases p with
    | error e => exact ⟨checkRel_notes h e2, rfl⟩
    | ok cards => exact ih (checkFold_rel opts cards (checkRel_notes h e2))

/-- C151: `--verbose` only adds lines to the output of check-instructions: without these the output is
as without the option, and the script ends in the same way. Without the option there are none. -/
theorem C151_check (v : Bool) (fs : FileSystem) (fuel : Nat) (opts : CheckOpts) (args : List Str) :
    (checkInstructionsV v fs fuel opts args).1.filterMap usual = (checkRun fs fuel opts args).1 ∧
    (checkInstructionsV v fs fuel opts args).2 = (checkRun fs fuel opts args).2 ∧
    (checkInstructionsV false fs fuel opts args).1 = (checkRun fs fuel opts args).1.map .msg := by
  have key : ∀ v, Adds v (checkInstructionsV v fs fuel opts args).1 (checkRun fs fuel opts args).1 ∧
      (checkInstructionsV v fs fuel opts args).2 = (checkRun fs fuel opts args).2 := by
    intro v
    unfold checkInstructionsV checkRun
    split
    · exact ⟨adds_nil, rfl⟩
    · have h0 : CheckRel v CheckStateV.init CheckState.init := ⟨rfl, rfl, rfl, rfl, adds_nil⟩
      obtain ⟨⟨h1, h2, h3, h4, h5⟩, h6⟩ := checkFilesV_rel v fs fuel opts args h0
      generalize checkFilesV v fs fuel opts args CheckStateV.init = p at *
      generalize checkFilesRun fs fuel opts args CheckState.init = q at *
      obtain ⟨s, p⟩ := p
      obtain ⟨t, q⟩ := q
      simp only at h1 h2 h3 h4 h5 h6
      subst h6
      cases p with
      | error e => exact ⟨h5, rfl⟩
      | ok u =>
        simp only
        have ht : ∀ o, checkTail opts ⟨s.errcount, s.linecount, s.instrcount, s.instrtab, o⟩ =
            checkTail opts t := by
          intro o
          unfold checkTail
          rw [h1, h4]
        rw [ht, h2, h3, h4]
        split
        · generalize freqLinesRun opts t.instrcount _ = r
          obtain ⟨l, r⟩ := r
          cases r with
          | error e => exact ⟨adds_append h5 (adds_msgs _), rfl⟩
          | ok u =>
            refine ⟨?_, rfl⟩
            have := adds_append h5 (adds_msgs (v := v)
              (.lines t.linecount :: .total t.instrcount :: l ++ checkTail opts t))
            simpa using this
        · exact ⟨adds_append h5 (adds_msgs _), rfl⟩
  exact ⟨(key v).1.1, (key v).2, (key false).1.2 rfl⟩

theorem listStepV_adds (v details : Bool) (opcode : Str) (c : CodeCard) :
    Adds v (listStepV v details opcode c)
      (([c].filter (listed opcode)).map (listLine details)) := by
  unfold listStepV
  have hl : listed opcode c = match c.operation with
      | none => false
      | some [] => false
      | some operation =>
        if c.column8 = some (py "*") then false
        else
          let instruction := remove (strip operation) ' '
          let instruction :=
            if instruction.contains ',' && !opcode.contains ',' then splitFirst instruction ','
            else instruction
          instruction = opcode || (hasSuffix (py ",") opcode && hasPrefix opcode instruction) := rfl
  cases ho : c.operation with
  | none =>
    rw [ho] at hl
    simp only at hl
    simp only [List.filter_cons, hl]
    exact adds_nil
  | some i =>
    cases i with
    | nil =>
      rw [ho] at hl
      simp only at hl
      simp only [List.filter_cons, hl]
      exact adds_nil
    | cons x xs =>
      rw [ho] at hl
      simp only at hl ⊢
      split
      · rename_i hc
        rw [if_pos hc] at hl
        simp only [List.filter_cons, hl]
        exact adds_starred v c
      · rename_i hc
        rw [if_neg hc] at hl
        rw [← hl, List.filter_cons, List.filter_nil]
        cases listed opcode c with
        | true => exact adds_msgs [_]
        | false => exact adds_nil

theorem listSteps_adds (v details : Bool) (opcode : Str) (cards : List CodeCard) :
    Adds v (cards.flatMap (listStepV v details opcode))
      ((cards.filter (listed opcode)).map (listLine details)) := by
  induction cards with
  | nil => exact adds_nil
  | cons c cards ih =>
    have := adds_append (listStepV_adds v details opcode c) ih
    rw [← List.map_append, ← List.filter_append] at this
    exact this

/-- C151: the same for list-instructions. -/
theorem C151_list (v : Bool) (fs : FileSystem) (fuel : Nat) (details : Bool) (args : List Str) :
    (listInstructionsV v fs fuel details args).1.filterMap usual = (listRun fs fuel details args).1 ∧
    (listInstructionsV v fs fuel details args).2 = (listRun fs fuel details args).2 ∧
    (listInstructionsV false fs fuel details args).1 =
      (listRun fs fuel details args).1.map .msg := by
  have key : ∀ v opcode files, Adds v (listFilesV v fs fuel details opcode files).1
        (listFilesRun fs fuel details opcode files).1 ∧
      (listFilesV v fs fuel details opcode files).2 =
        (listFilesRun fs fuel details opcode files).2 := by
    intro v opcode files
    induction files with
    | nil => exact ⟨adds_nil, rfl⟩
    | cons f files ih =>
      have e1 := deckCardsV_snd (α := Str) v fs fuel f
      have e2 := deckCardsV_notes (α := Str) v fs fuel f
      rw [listFilesV, listFilesRun, ← e1]
      generalize deckCardsV (α := Str) v fs fuel f = p at e2
      obtain ⟨o, p⟩ := p
      cases p with
      | error e => exact ⟨adds_notes e2, rfl⟩
      | ok cards =>
        refine ⟨?_, ih.2⟩
        have := adds_append (adds_append (adds_notes e2) (listSteps_adds v details opcode cards)) ih.1
        exact this
  have key2 : ∀ v, Adds v (listInstructionsV v fs fuel details args).1
        (listRun fs fuel details args).1 ∧
      (listInstructionsV v fs fuel details args).2 = (listRun fs fuel details args).2 := by
    intro v
    unfold listInstructionsV listRun
    cases args with
    | nil => exact ⟨adds_nil, rfl⟩
    | cons opcode files =>
      simp only
      generalize (if opcode.contains ',' = true then splitFirst opcode ',' else opcode) = command
      split
      · exact ⟨adds_nil, rfl⟩
      · exact key v opcode files
  exact ⟨(key2 v).1.1, (key2 v).2, (key2 false).1.2 rfl⟩

/-- C151: with and without `--verbose` listing leaves the same files and ends in the same way, and
all it prints is printed because of the option. -/
theorem C151_listing (v : Bool) (fs : FileSystem) (fuel : Nat) (args : List Str) :
    (listingV v fs fuel args).1 = (listingMain fs fuel args).1 ∧
    (listingV v fs fuel args).2.2 = (listingMain fs fuel args).2 ∧
    (listingV false fs fuel args).2.1 = [] := by
  have key : ∀ v fs, (listingFilesV v fuel fs args).1 = (listingFiles fuel fs args).1 ∧
      (listingFilesV v fuel fs args).2.2 = (listingFiles fuel fs args).2 ∧
      Adds v (listingFilesV v fuel fs args).2.1 [] := by
    intro v fs
    induction args generalizing fs with
    | nil => exact ⟨rfl, rfl, adds_nil⟩
    | cons f files ih =>
      have e1 := deckCardsV_snd (α := Empty) v fs fuel f
      have e2 := deckCardsV_notes (α := Empty) v fs fuel f
      rw [listingFilesV, listingFiles, ← e1]
      generalize deckCardsV (α := Empty) v fs fuel f = p at e2
      obtain ⟨o, p⟩ := p
      cases p with
      | error e => exact ⟨rfl, rfl, adds_notes e2⟩
      | ok cards =>
        obtain ⟨h1, h2, h3⟩ := ih (writeFile fs (listfileOf f) (cards.flatMap deckLine))
        refine ⟨h1, h2, ?_⟩
        have hw : Adds (α := Empty) v (if v then [.wrote (listfileOf f)] else []) [] := by
          cases v <;> exact ⟨rfl, fun e => by cases e; try rfl⟩
        have := adds_append (adds_append (adds_notes e2) hw) h3
        exact this
  unfold listingV listingMain
  split
  · exact ⟨rfl, rfl, rfl⟩
  · exact ⟨(key v fs).1, (key v fs).2.1, (key false fs).2.2.2 rfl⟩

theorem buildV_run (v : Bool) (upper : Str → Str) (fs : FileSystem) (fuel : Nat) (f : Str)
    (t : Symtab) :
    (buildV v upper fs fuel f t).2 = buildRun upper fs fuel f t ∧
    Adds v (buildV v upper fs fuel f t).1
      ((buildRun upper fs fuel f t).1.diags.map fun d => .diag d) := by
  have e1 := deckCardsV_snd (α := SymMsg) v fs fuel f
  have e2 := deckCardsV_notes (α := SymMsg) v fs fuel f
  unfold buildV buildRun
  rw [← e1]
  generalize deckCardsV (α := SymMsg) v fs fuel f = p at e2
  obtain ⟨o, p⟩ := p
  cases p with
  | error e => exact ⟨rfl, adds_notes e2⟩
  | ok cards =>
    simp only
    generalize buildCardsRun upper (splitFirst f '.') cards _ = q
    refine ⟨trivial, ?_⟩
    have := adds_append (adds_notes e2) (adds_msgs (v := v)
      (q.1.diags.map fun d => SymMsg.diag d))
    rw [List.map_map] at this
    exact this

theorem buildFilesV_run (v : Bool) (upper : Str → Str) (fs : FileSystem) (fuel : Nat) (a : Bool)
    (files : List Str) (t : Symtab) (n : Nat) :
    (buildFilesV v upper fs fuel a files t n).2 = (buildFilesRun upper fs fuel a files t n).2 ∧
    Adds v (buildFilesV v upper fs fuel a files t n).1
      (buildFilesRun upper fs fuel a files t n).1 := by
  induction files generalizing t n with
  | nil => exact ⟨rfl, adds_nil⟩
  | cons f files ih =>
    obtain ⟨e1, e2⟩ := buildV_run v upper fs fuel f t
    rw [buildFilesV, buildFilesRun]
    rw [← e1] at e2 ⊢
    generalize buildV v upper fs fuel f t = p at e2
    obtain ⟨o, b, p⟩ := p
    cases p with
    | error e => exact ⟨rfl, e2⟩
    | ok u =>
      obtain ⟨h1, h2⟩ := ih b.symtab (n + b.errcount)
      refine ⟨h1, ?_⟩
      have h3 : Adds v (if a then [.msg (.fileErrs f b.errcount)] else [])
          (if a then [SymMsg.fileErrs f b.errcount] else []) := by
        split
        · exact adds_msgs [_]
        · exact adds_nil
      exact adds_append (adds_append e2 h3) h2

/-- C151: the same for check-symbols. -/
theorem C151_check_symbols (v : Bool) (upper : Str → Str) (extract : Str → List Str → Nat → List Str)
    (fs : FileSystem) (fuel : Nat) (complex : Bool) (args : List Str) :
    (checkSymbolsV v upper extract fs fuel complex args).1.filterMap usual =
      (checkSymbolsRun upper extract fs fuel complex args).1 ∧
    (checkSymbolsV v upper extract fs fuel complex args).2 =
      (checkSymbolsRun upper extract fs fuel complex args).2 ∧
    (checkSymbolsV false upper extract fs fuel complex args).1 =
      (checkSymbolsRun upper extract fs fuel complex args).1.map .msg := by
  have key : ∀ v, Adds v (checkSymbolsV v upper extract fs fuel complex args).1
        (checkSymbolsRun upper extract fs fuel complex args).1 ∧
      (checkSymbolsV v upper extract fs fuel complex args).2 =
        (checkSymbolsRun upper extract fs fuel complex args).2 := by
    intro v
    unfold checkSymbolsV checkSymbolsRun
    split
    · exact ⟨adds_nil, rfl⟩
    · obtain ⟨e1, e2⟩ := buildFilesV_run v upper fs fuel true args [] 0
      generalize buildFilesV v upper fs fuel true args [] 0 = p at *
      generalize buildFilesRun upper fs fuel true args [] 0 = q at *
      obtain ⟨o, t, n, p⟩ := p
      obtain ⟨o', t', n', q⟩ := q
      cases e1
      cases p with
      | error e => exact ⟨e2, rfl⟩
      | ok u =>
        refine ⟨?_, rfl⟩
        simp only
        have := adds_append e2 (adds_msgs (v := v)
          ((checkSymbolTable t complex).map SymMsg.complexOnly ++
            undefinedMsgs extract t (checkSymbolTable t complex) ++
            if args.length > 1 then [SymMsg.total (n + (checkSymbolTable t complex).length)] else []))
        simpa only [List.append_assoc] using this
  exact ⟨(key v).1.1, (key v).2, (key false).1.2 rfl⟩

/-- C151: the same for find-symbols. -/
theorem C151_find_symbols (v : Bool) (upper : Str → Str) (extract : Str → List Str → Nat → List Str)
    (fs : FileSystem) (fuel : Nat) (begin end_ fuzzy exact_ : Bool) (args : List Str) :
    (findSymbolsV v upper extract fs fuel begin end_ fuzzy exact_ args).1.filterMap usual =
      (findSymbolsRun upper extract fs fuel begin end_ fuzzy exact_ args).1 ∧
    (findSymbolsV v upper extract fs fuel begin end_ fuzzy exact_ args).2 =
      (findSymbolsRun upper extract fs fuel begin end_ fuzzy exact_ args).2 ∧
    (findSymbolsV false upper extract fs fuel begin end_ fuzzy exact_ args).1 =
      (findSymbolsRun upper extract fs fuel begin end_ fuzzy exact_ args).1.map .msg := by
  have key : ∀ v, Adds v (findSymbolsV v upper extract fs fuel begin end_ fuzzy exact_ args).1
        (findSymbolsRun upper extract fs fuel begin end_ fuzzy exact_ args).1 ∧
      (findSymbolsV v upper extract fs fuel begin end_ fuzzy exact_ args).2 =
        (findSymbolsRun upper extract fs fuel begin end_ fuzzy exact_ args).2 := by
    intro v
    unfold findSymbolsV findSymbolsRun
    split
    · exact ⟨adds_nil, rfl⟩
    · match args with
      | [] => exact ⟨adds_nil, rfl⟩
      | [_] => exact ⟨adds_nil, rfl⟩
      | symbol :: f :: files =>
        simp only
        obtain ⟨e1, e2⟩ := buildFilesV_run v upper fs fuel true (f :: files) [] 0
        generalize buildFilesV v upper fs fuel true (f :: files) [] 0 = p at *
        generalize buildFilesRun upper fs fuel true (f :: files) [] 0 = q at *
        obtain ⟨o, t, n, p⟩ := p
        obtain ⟨o', t', n', q⟩ := q
        cases e1
        cases p with
        | error e => exact ⟨e2, rfl⟩
        | ok u =>
          simp only
          refine ⟨?_, trivial⟩
          rw [List.append_assoc]
          exact adds_append e2 (adds_msgs _)
  exact ⟨(key v).1.1, (key v).2, (key false).1.2 rfl⟩

/-- C151: the same for list-symbols. -/
theorem C151_list_symbols (v : Bool) (upper : Str → Str) (fs : FileSystem) (fuel : Nat)
    (args : List Str) :
    (listSymbolsV v upper fs fuel args).1.filterMap usual = (listSymbolsRun upper fs fuel args).1 ∧
    (listSymbolsV v upper fs fuel args).2 = (listSymbolsRun upper fs fuel args).2 ∧
    (listSymbolsV false upper fs fuel args).1 = (listSymbolsRun upper fs fuel args).1.map .msg := by
  have key : ∀ v, Adds v (listSymbolsV v upper fs fuel args).1
        (listSymbolsRun upper fs fuel args).1 ∧
      (listSymbolsV v upper fs fuel args).2 = (listSymbolsRun upper fs fuel args).2 := by
    intro v
    unfold listSymbolsV listSymbolsRun
    split
    · exact ⟨adds_nil, rfl⟩
    · obtain ⟨e1, e2⟩ := buildFilesV_run v upper fs fuel false args [] 0
      generalize buildFilesV v upper fs fuel false args [] 0 = p at *
      generalize buildFilesRun upper fs fuel false args [] 0 = q at *
      obtain ⟨o, t, n, p⟩ := p
      obtain ⟨o', t', n', q⟩ := q
      cases e1
      cases p with
      | error e => exact ⟨e2, rfl⟩
      | ok u =>
        simp only
        cases tableLines t with
        | error e => exact ⟨e2, rfl⟩
        | ok l =>
          refine ⟨?_, rfl⟩
          simp only
          rw [List.append_assoc]
          exact adds_append e2 (adds_msgs _)
  exact ⟨(key v).1.1, (key v).2, (key false).1.2 rfl⟩

/-! parse.py -/

theorem errNumbers_append (a b : List SymMsg) : errNumbers (a ++ b) = errNumbers a ++ errNumbers b := by
  induction a with
  | nil => rfl
  | cons x a ih => cases x <;> simp [errNumbers, ih]

theorem errNumbers_diags (l : List Diag) :
    errNumbers (l.map fun d => .diag d) = [] := by
  induction l with
  | nil => rfl
  | cons x a ih => simpa [errNumbers] using ih

theorem buildRun_eq (upper : Str → Str) (fs : FileSystem) (fuel : Nat) (f : Str) (t : Symtab) :
    buildSymbolTable upper fs fuel f t =
      match buildRun upper fs fuel f t with
      | (b, .ok ()) => .ok b
      | (_, .error e) => .error e := by
  have hc : ∀ (cards : List CodeCard) (st : BuildState) (seg : Str),
      cards.foldlM (buildStep upper seg) st = match buildCardsRun upper seg cards st with
        | (b, .ok ()) => Except.ok b
        | (_, .error e) => .error e := by
    intro cards
    induction cards with
    | nil => intro st seg; rfl
    | cons c cards ih =>
      intro st seg
      rw [List.foldlM_cons, buildCardsRun]
      cases buildStep upper seg st c with
      | error e => rfl
      | ok st => exact ih st seg
  unfold buildSymbolTable buildRun
  cases deckCards fs fuel f with
  | error e => rfl
  | ok cards => exact hc cards _ _

theorem parseSymbolsV_run (upper : Str → Str) (fs : FileSystem) (fuel : Nat) (files : List Str)
    (t : Symtab) (n : Nat) (errs : List Nat) :
    ∃ usuals, (∀ v, Adds v (parseSymbolsV v upper fs fuel files t n).1 usuals) ∧
      ∀ v, parseSymbolsRun upper fs fuel files t n errs =
        ((parseSymbolsV v upper fs fuel files t n).2.1, errs ++ errNumbers usuals,
          (parseSymbolsV v upper fs fuel files t n).2.2) := by
  induction files generalizing t n errs with
  | nil => exact ⟨[], fun _ => adds_nil, fun _ => by simp [parseSymbolsRun, parseSymbolsV, errNumbers]⟩
  | cons f files ih =>
    have e := buildRun_eq upper fs fuel f t
    cases hb : buildRun upper fs fuel f t with
    | mk b r =>
      rw [hb] at e
      cases r with
      | error err =>
        refine ⟨b.diags.map fun d => .diag d, fun v => ?_, fun v => ?_⟩
        · obtain ⟨e1, e2⟩ := buildV_run v upper fs fuel f t
          rw [hb] at e1 e2
          rw [parseSymbolsV]
          generalize buildV v upper fs fuel f t = p at *
          obtain ⟨o, p⟩ := p
          simp only at e1
          subst e1
          exact e2
        · obtain ⟨e1, -⟩ := buildV_run v upper fs fuel f t
          rw [hb] at e1
          rw [parseSymbolsRun, parseSymbolsV, e, errNumbers_diags, List.append_nil]
          generalize buildV v upper fs fuel f t = p at *
          obtain ⟨o, p⟩ := p
          simp only at e1
          subst e1
          rfl
      | ok u =>
        obtain ⟨us, h1, h2⟩ := ih b.symtab b.errcount (errs ++ [b.errcount])
        refine ⟨(b.diags.map fun d => .diag d) ++ [.fileErrs f b.errcount] ++ us,
          fun v => ?_, fun v => ?_⟩
        · obtain ⟨e1, e2⟩ := buildV_run v upper fs fuel f t
          rw [hb] at e1 e2
          rw [parseSymbolsV]
          generalize buildV v upper fs fuel f t = p at *
          obtain ⟨o, p⟩ := p
          simp only at e1
          subst e1
          exact adds_append (adds_append e2 (adds_msgs [_])) (h1 v)
        · obtain ⟨e1, -⟩ := buildV_run v upper fs fuel f t
          rw [hb] at e1
          rw [parseSymbolsRun, parseSymbolsV, e]
          generalize buildV v upper fs fuel f t = p at *
          obtain ⟨o, p⟩ := p
          simp only at e1
          subst e1
          simp only
          rw [h2 v, errNumbers_append, errNumbers_append, errNumbers_diags]
          simp [errNumbers]

theorem parseStepV_adds {v debug : Bool} {l n : Nat} {out : List (VMsg ParseMsg)}
    {out' : List CheckMsg} (h : Adds v out (out'.map .inr)) (c : CodeCard) :
    ∃ o o', parseStepV v debug (l, n, out) c =
        ((parseStepRun debug (l, n, out') c).1, (parseStepRun debug (l, n, out') c).2.1, o) ∧
      (parseStepRun debug (l, n, out') c).2.2 = o' ∧ Adds v o (o'.map .inr) := by
  unfold parseStepV parseStepRun
  simp only
  cases c.instruction with
  | none => exact ⟨_, _, rfl, rfl, h⟩
  | some i =>
    cases i with
    | nil => exact ⟨_, _, rfl, rfl, h⟩
    | cons x xs =>
      have h6 : Adds v (if debug then out ++ [.msg (.inr (.card c))] else out)
          ((if debug then out' ++ [.card c] else out').map Sum.inr) := by
        split
        · rw [List.map_append]
          exact adds_append h (adds_msgs [_])
        · exact h
      simp only
      split
      · refine ⟨_, _, rfl, rfl, ?_⟩
        have := adds_append h6 (adds_starred v c)
        rw [List.append_nil] at this
        cases v with
        | true => exact this
        | false => exact h6
      · split
        · refine ⟨_, _, rfl, rfl, ?_⟩
          rw [List.map_append]
          exact adds_append h6 (adds_msgs [_])
        · exact ⟨_, _, rfl, rfl, h6⟩

theorem parseFoldV_adds {v debug : Bool} (cards : List CodeCard) {l n : Nat}
    {out : List (VMsg ParseMsg)} {out' : List CheckMsg} (h : Adds v out (out'.map .inr)) :
    ∃ l' n' o o', cards.foldl (parseStepV v debug) (l, n, out) = (l', n', o) ∧
      cards.foldl (parseStepRun debug) (l, n, out') = (l', n', o') ∧ Adds v o (o'.map .inr) := by
  induction cards generalizing l n out out' with
  | nil => exact ⟨_, _, _, _, rfl, rfl, h⟩
  | cons c cards ih =>
    obtain ⟨o, o', e1, e2, e3⟩ := parseStepV_adds (debug := debug) (l := l) (n := n) h c
    rw [List.foldl_cons, List.foldl_cons, e1]
    have : parseStepRun debug (l, n, out') c = ((parseStepRun debug (l, n, out') c).1,
        (parseStepRun debug (l, n, out') c).2.1, o') := by rw [← e2]
    rw [this]
    exact ih e3

theorem parseDecksV_run {v debug : Bool} (fs : FileSystem) (fuel : Nat) (files : List Str)
    {l n : Nat} {out : List (VMsg ParseMsg)} {out' : List CheckMsg}
    (h : Adds v out (out'.map .inr)) :
    ∃ l' n' o o' r, parseDecksV v fs fuel debug files (l, n, out) = ((l', n', o), r) ∧
      parseDecksRun fs fuel debug files (l, n, out') = ((l', n', o'), r) ∧
      Adds v o (o'.map .inr) := by
  induction files generalizing l n out out' with
  | nil => exact ⟨_, _, _, _, _, rfl, rfl, h⟩
  | cons f files ih =>
    have e1 := deckCardsV_snd (α := ParseMsg) v fs fuel f
    have e2 := deckCardsV_notes (α := ParseMsg) v fs fuel f
    rw [parseDecksV, parseDecksRun, ← e1]
    generalize deckCardsV (α := ParseMsg) v fs fuel f = p at e2
    obtain ⟨o, p⟩ := p
    have h' := adds_append h (adds_notes e2)
    rw [List.append_nil] at h'
    cases p with
    | error e => exact ⟨_, _, _, _, _, rfl, rfl, h'⟩
    | ok cards =>
      obtain ⟨l', n', a, a', k1, k2, k3⟩ := parseFoldV_adds (debug := debug) cards (l := l) (n := n) h'
      simp only
      rw [k1, k2]
      exact ih k3

theorem adds_inl {v : Bool} {a : List (VMsg SymMsg)} {b : List SymMsg} (h : Adds v a b) :
    Adds (α := ParseMsg) v (a.map VMsg.inl) (b.map (Sum.inl (β := CheckMsg))) := by
  obtain ⟨h1, h2⟩ := h
  refine ⟨?_, fun e => ?_⟩
  · rw [← h1]
    clear h1 h2
    induction a with
    | nil => rfl
    | cons x a ih =>
      cases x with
      | msg m => exact congrArg (List.cons (Sum.inl m)) ih
      | _ => exact ih
  · rw [h2 e, List.map_map, List.map_map]
    rfl

/-- C151: the same for parse: the messages of the two runs agree but for those that the option adds,
and without the option there are none of these. On the standard output and among the numbers of
errors of the files there is what `parseRun` says, and the script ends as it says. -/
theorem C151_parse (v : Bool) (upper : Str → Str) (fs : FileSystem) (fuel : Nat) (debug : Bool)
    (args : List Str) :
    ∃ syms checks, (parseV v upper fs fuel debug args).1.filterMap usual =
        syms.map .inl ++ checks.map .inr ∧
      (parseV false upper fs fuel debug args).1 =
        (syms.map Sum.inl ++ checks.map Sum.inr).map .msg ∧
      parseRun upper fs fuel debug args =
        (⟨checks, errNumbers syms⟩, (parseV v upper fs fuel debug args).2) := by
  have key : ∃ syms checks, ∀ v, Adds v (parseV v upper fs fuel debug args).1
        (syms.map .inl ++ checks.map .inr) ∧
      parseRun upper fs fuel debug args =
        (⟨checks, errNumbers syms⟩, (parseV v upper fs fuel debug args).2) := by
    unfold parseV parseRun
    split
    · exact ⟨[], [], fun _ => ⟨adds_nil, rfl⟩⟩
    · obtain ⟨us, h1, h2⟩ := parseSymbolsV_run upper fs fuel args [] 0 []
      cases hr : parseSymbolsRun upper fs fuel args [] 0 [] with
      | mk n q =>
      obtain ⟨errs, r⟩ := q
      cases r with
      | error e =>
        refine ⟨us, [], fun v => ?_⟩
        have h1 := h1 v
        have h2 := h2 v
        rw [hr] at h2
        generalize parseSymbolsV v upper fs fuel args [] 0 = p at *
        obtain ⟨o, m, p⟩ := p
        cases h2
        refine ⟨?_, rfl⟩
        rw [List.map_nil, List.append_nil]
        exact adds_inl h1
      | ok u =>
        have h0 := parseDecksV_run (v := false) (debug := debug) fs fuel args (l := 0) (n := n)
          (out' := []) adds_nil
        obtain ⟨l', n', a, a', r, -, hd, -⟩ := h0
        have fin : ∀ v, ∃ o b, Adds v o us ∧ Adds v b (a'.map .inr) ∧
            parseSymbolsV v upper fs fuel args [] 0 = (o, n, .ok ()) ∧
            parseDecksV v fs fuel debug args (0, n, []) = ((l', n', b), r) ∧
            errs = errNumbers us := by
          intro v
          have h1 := h1 v
          have h2 := h2 v
          rw [hr] at h2
          generalize parseSymbolsV v upper fs fuel args [] 0 = p at *
          obtain ⟨o, m, p⟩ := p
          cases h2
          obtain ⟨l2, n2, b, b', r2, k1, k2, k3⟩ := parseDecksV_run (v := v) (debug := debug) fs fuel
            args (l := 0) (n := m) (out' := []) adds_nil
          rw [hd] at k2
          cases k2
          exact ⟨o, b, h1, k3, rfl, k1, rfl⟩
        simp only
        rw [hd]
        cases r with
        | error e =>
          refine ⟨us, a', fun v => ?_⟩
          obtain ⟨o, b, f1, f2, f3, f4, rfl⟩ := fin v
          rw [f3]
          simp only
          rw [f4]
          exact ⟨adds_append (adds_inl f1) f2, rfl⟩
        | ok u =>
          refine ⟨us, a' ++ [.lines l', .errors n'], fun v => ?_⟩
          obtain ⟨o, b, f1, f2, f3, f4, rfl⟩ := fin v
          rw [f3]
          simp only
          rw [f4]
          refine ⟨?_, rfl⟩
          rw [List.map_append, ← List.append_assoc]
          exact adds_append (adds_append (adds_inl f1) f2) 
            (adds_msgs (α := ParseMsg) [.inr (.lines l'), .inr (.errors n')])
  obtain ⟨syms, checks, h⟩ := key
  exact ⟨syms, checks, (h v).1.1, (h false).1.2 rfl, (h v).2⟩

/-- C151 on a file with a starred card and a comment. -/
def verboseFs : FileSystem := fun f =>
  if f = py "A.arg" then some (py "# x\n       *           TN\n                   TN\n")
  else none

example : checkInstructionsV true verboseFs 10 ⟨false, false, false, false, false, false⟩
      [py "A.arg"] =
    ([.reading (py "A.arg"), .meta_ (py "A.arg") 1,
      .starred (srcCard ⟨py "A.arg", 2, py "       *           TN\n"⟩), .msg (.errors 0)], .ok ()) ∧
    checkRun verboseFs 10 ⟨false, false, false, false, false, false⟩ [py "A.arg"] =
      ([.errors 0], .ok ()) := by
  decide +kernel

/-! ### C152 -/

/-- The notes and the source lines of each file, in the order of the files. -/
theorem deckCardsV_ok {α : Type} {fs : FileSystem} {fuel : Nat} {f : Str} {out : List (VMsg α)}
    {cards : List CodeCard} (h : deckCardsV true fs fuel f = (out, .ok cards)) :
    ∃ m src, Tells fs f true m ∧ Expands fs f src ∧ cards = src.map srcCard ∧
      out.filterMap extra = m.map .note := by
  have e := deckCardsV_snd (α := α) true fs fuel f
  rw [h] at e
  obtain ⟨hne, src, h1, rfl⟩ := deckCards_ok e.symm
  obtain ⟨m, hm, ho⟩ := (C150_reading (α := α) fs fuel f hne).1 _ _ h
  refine ⟨m, src, hm, h1, rfl, ?_⟩
  have := congrArg (List.filterMap id) ho
  rw [List.filterMap_map, List.filterMap_map] at this
  simpa using this

theorem extras_msgs {α : Type} (l : List α) : (l.map VMsg.msg).filterMap extra = [] := by
  induction l with
  | nil => rfl
  | cons a l ih => rw [List.map_cons, List.filterMap_cons]; exact ih

open Classical in
theorem checkFoldV_extra (opts : CheckOpts) (src : List Src) (s : CheckStateV) :
    ((src.map srcCard).foldl (checkStepV true opts) s).out.filterMap extra =
      s.out.filterMap extra ++
        (src.filter fun s => decide (Starred s ∧ ∃ i, HasInstr s i)).map skipped := by
  induction src generalizing s with
  | nil => simp
  | cons x src ih =>
    rw [List.map_cons, List.foldl_cons, ih, List.filter_cons]
    have key : (checkStepV true opts s (srcCard x)).out.filterMap extra = s.out.filterMap extra ++
        if Starred x ∧ ∃ i, HasInstr x i then [skipped x] else [] := by
      have hi := instOf_iff x
      unfold instOf at hi
      unfold checkStepV
      cases hc : (srcCard x).instruction with
      | none =>
        rw [hc] at hi
        have hn : ¬ (Starred x ∧ ∃ i, HasInstr x i) := by rintro ⟨-, i, h⟩; cases (hi i).2 h
        simp [hn]
      | some i =>
        cases i with
        | nil =>
          rw [hc] at hi
          have hn : ¬ (Starred x ∧ ∃ i, HasInstr x i) := by rintro ⟨-, i, h⟩; cases (hi i).2 h
          simp [hn]
        | cons y ys =>
          rw [hc] at hi
          have hp : ((if opts.printOpcodes then s.out ++ [.msg (.card (srcCard x))] else s.out) :
              List (VMsg CheckMsg)).filterMap extra = s.out.filterMap extra := by
            split
            · rw [List.filterMap_append]; simp [extra]
            · rfl
          simp only
          by_cases hs : Starred x
          · have hy : Starred x ∧ ∃ i, HasInstr x i := ⟨hs, _, (hi _).1 rfl⟩
            rw [if_pos ((starred_iff x).2 hs)]
            simp only [hy, and_self, if_true]
            rw [List.filterMap_append, hp]
            rfl
          · have hn : ¬ (Starred x ∧ ∃ i, HasInstr x i) := fun h => hs h.1
            rw [if_neg (fun h => hs ((starred_iff x).1 h))]
            simp only [hn, if_false, List.append_nil]
            cases dget s.instrtab (y :: ys) with
            | none =>
              simp only
              rw [List.filterMap_append, hp]
              simp [extra]
            | some n =>
              simp only
              split
              · split
                · exact hp
                · simp only
                  rw [List.filterMap_append, hp]
                  simp [extra]
              · exact hp
    rw [key]
    split
    · rename_i h
      rw [if_pos (by simpa using h)]
      simp
    · rename_i h
      rw [if_neg (by simpa using h)]
      simp

open Classical in
theorem checkFilesV_extra (fs : FileSystem) (fuel : Nat) (opts : CheckOpts) (files : List Str)
    (s s' : CheckStateV) (h : checkFilesV true fs fuel opts files s = (s', .ok ())) :
    ∃ notes srcs, List.Forall₂ (fun f m => Tells fs f true m) files notes ∧
      List.Forall₂ (Expands fs) files srcs ∧
      s'.out.filterMap extra = s.out.filterMap extra ++
        (List.zipWith (fun m src => m.map Extra.note ++
          (src.filter fun s => decide (Starred s ∧ ∃ i, HasInstr s i)).map skipped)
          notes srcs).flatten := by
  induction files generalizing s with
  | nil => cases h; exact ⟨[], [], .nil, .nil, by simp⟩
  | cons f files ih =>
    rw [checkFilesV] at h
    cases hd : deckCardsV (α := CheckMsg) true fs fuel f with
    | mk o r =>
      rw [hd] at h
      cases r with
      | error e => cases h
      | ok cards =>
        obtain ⟨m, src, h1, h2, rfl, h3⟩ := deckCardsV_ok hd
        obtain ⟨ns, ss, k1, k2, k3⟩ := ih _ h
        refine ⟨m :: ns, src :: ss, .cons h1 k1, .cons h2 k2, ?_⟩
        rw [k3, checkFoldV_extra]
        simp only [List.filterMap_append, h3, List.zipWith_cons_cons, List.flatten_cons,
          List.append_assoc]

open Classical in
/-- C152: with `--verbose` check-instructions adds for each file, in their order, what is told while
it is read and then the starred lines that have an instruction, in the order of the lines. -/
theorem C152_check (fs : FileSystem) (fuel : Nat) (opts : CheckOpts) (files : List Str)
    (out : List (VMsg CheckMsg)) (h : checkInstructionsV true fs fuel opts files = (out, .ok ())) :
    ∃ notes srcs, List.Forall₂ (fun f m => Tells fs f true m) files notes ∧
      List.Forall₂ (Expands fs) files srcs ∧
      out.filterMap extra =
        (List.zipWith (fun m src => m.map Extra.note ++
          (src.filter fun s => decide (Starred s ∧ ∃ i, HasInstr s i)).map skipped)
          notes srcs).flatten := by
  unfold checkInstructionsV at h
  split at h
  · cases h
  · cases hf : checkFilesV true fs fuel opts files CheckStateV.init with
    | mk s r =>
      rw [hf] at h
      cases r with
      | error e => cases h
      | ok u =>
        obtain ⟨ns, ss, k1, k2, k3⟩ := checkFilesV_extra fs fuel opts files _ _ hf
        refine ⟨ns, ss, k1, k2, ?_⟩
        simp only at h
        have : out.filterMap extra = s.out.filterMap extra := by
          split at h
          · generalize freqLinesRun opts s.instrcount _ = q at h
            obtain ⟨l, q⟩ := q
            cases q with
            | error e => cases h
            | ok u => cases h; rw [List.filterMap_append, extras_msgs, List.append_nil]
          · cases h; rw [List.filterMap_append, extras_msgs, List.append_nil]
        rw [this, k3]
        rfl

open Classical in
theorem listStepsV_extra (details : Bool) (opcode : Str) (src : List Src) :
    ((src.map srcCard).flatMap (listStepV true details opcode)).filterMap extra =
      (src.filter fun s => decide (Starred s ∧ ∃ o, HasOp s o)).map skipped := by
  induction src with
  | nil => rfl
  | cons x src ih =>
    rw [List.map_cons, List.flatMap_cons, List.filterMap_append, ih, List.filter_cons]
    have key : (listStepV true details opcode (srcCard x)).filterMap extra =
        if Starred x ∧ ∃ o, HasOp x o then [skipped x] else [] := by
      have hi := op_iff x
      unfold listStepV
      cases hc : (srcCard x).operation with
      | none =>
        rw [hc] at hi
        have hn : ¬ (Starred x ∧ ∃ o, HasOp x o) := by rintro ⟨-, i, h⟩; cases (hi i).2 h
        simp [hn]
      | some i =>
        rw [hc] at hi
        cases i with
        | nil => exact absurd rfl ((hi []).1 rfl).2.1
        | cons y ys =>
          simp only
          by_cases hs : Starred x
          · have hy : Starred x ∧ ∃ o, HasOp x o := ⟨hs, _, (hi _).1 rfl⟩
            rw [if_pos ((starred_iff x).2 hs)]
            simp only [hy, and_self, if_true]
            rfl
          · have hn : ¬ (Starred x ∧ ∃ o, HasOp x o) := fun h => hs h.1
            rw [if_neg (fun h => hs ((starred_iff x).1 h))]
            simp only [hn, if_false]
            generalize (if ((remove (strip (y :: ys)) ' ').contains ',' && !opcode.contains ',') = true
              then splitFirst (remove (strip (y :: ys)) ' ') ',' else remove (strip (y :: ys)) ' ') = z
            split <;> rfl
    rw [key]
    split
    · rename_i h
      rw [if_pos (by simpa using h)]
      simp
    · rename_i h
      rw [if_neg (by simpa using h)]
      simp

open Classical in
/-- C152: list-instructions adds for each file what is told while it is read and then the starred
lines that have an operation. -/
theorem C152_list (fs : FileSystem) (fuel : Nat) (details : Bool) (opcode : Str) (files : List Str)
    (out : List (VMsg Str))
    (h : listInstructionsV true fs fuel details (opcode :: files) = (out, .ok ())) :
    ∃ notes srcs, List.Forall₂ (fun f m => Tells fs f true m) files notes ∧
      List.Forall₂ (Expands fs) files srcs ∧
      out.filterMap extra =
        (List.zipWith (fun m src => m.map Extra.note ++
          (src.filter fun s => decide (Starred s ∧ ∃ o, HasOp s o)).map skipped)
          notes srcs).flatten := by
  have key : listFilesV true fs fuel details opcode files = (out, .ok ()) := by
    unfold listInstructionsV at h
    simp only at h
    generalize (if opcode.contains ',' = true then splitFirst opcode ',' else opcode) = command at h
    split at h
    · cases h
    · exact h
  clear h
  induction files generalizing out with
  | nil => cases key; exact ⟨[], [], .nil, .nil, by simp⟩
  | cons f files ih =>
    rw [listFilesV] at key
    cases hd : deckCardsV (α := Str) true fs fuel f with
    | mk o r =>
      rw [hd] at key
      cases r with
      | error e => cases key
      | ok cards =>
        obtain ⟨m, src, h1, h2, rfl, h3⟩ := deckCardsV_ok hd
        simp only at key
        cases hl : listFilesV true fs fuel details opcode files with
        | mk l r =>
        rw [hl] at key
        cases key
        obtain ⟨ns, ss, k1, k2, k3⟩ := ih _ hl
        refine ⟨m :: ns, src :: ss, .cons h1 k1, .cons h2 k2, ?_⟩
        rw [List.filterMap_append, List.filterMap_append, h3, listStepsV_extra, k3]
        simp only [List.zipWith_cons_cons, List.flatten_cons]

/-- C152: listing adds for each file, besides what is told while it is read, the name of its listing;
the listings are named in the order of the files. -/
theorem C152_listing (fs fs' : FileSystem) (fuel : Nat) (files : List Str)
    (out : List (VMsg Empty)) (h : listingV true fs fuel files = (fs', out, .ok ())) :
    List.Forall₂ ListingName files ((out.filterMap extra).filterMap fun
      | .wrote n => some n
      | _ => none) := by
  unfold listingV at h
  split at h
  · cases h
  · clear * - h
    induction files generalizing fs out with
    | nil => cases h; exact .nil
    | cons f files ih =>
      rw [listingFilesV] at h
      cases hd : deckCardsV (α := Empty) true fs fuel f with
      | mk o r =>
        rw [hd] at h
        cases r with
        | error e => cases h
        | ok cards =>
          obtain ⟨m, src, h1, h2, rfl, h3⟩ := deckCardsV_ok hd
          simp only at h
          cases hl : listingFilesV true fuel
              (writeFile fs (listfileOf f) ((src.map srcCard).flatMap deckLine)) files with
          | mk fs2 q =>
          obtain ⟨out2, r⟩ := q
          rw [hl] at h
          cases h
          have e1 : ((m.map Extra.note).filterMap fun
              | .wrote n => some n
              | _ => none) = [] := by
            clear * -
            induction m with
            | nil => rfl
            | cons a m ih => exact ih
          rw [if_pos trivial, List.filterMap_append, List.filterMap_append, List.filterMap_append,
            List.filterMap_append, h3, e1]
          exact .cons (listfileOf_spec f) (ih _ _ hl)

theorem buildFilesV_extra (upper : Str → Str) (fs : FileSystem) (fuel : Nat) (a : Bool)
    (files : List Str) (t : Symtab) (n : Nat) (out : List (VMsg SymMsg)) (t' : Symtab) (n' : Nat)
    (h : buildFilesV true upper fs fuel a files t n = (out, t', n', .ok ())) :
    ∃ notes, List.Forall₂ (fun f m => Tells fs f true m) files notes ∧
      out.filterMap extra = notes.flatten.map .note := by
  induction files generalizing t n out with
  | nil => cases h; exact ⟨[], .nil, rfl⟩
  | cons f files ih =>
    rw [buildFilesV] at h
    unfold buildV at h
    cases hd : deckCardsV (α := SymMsg) true fs fuel f with
    | mk o r =>
      rw [hd] at h
      cases r with
      | error e => cases h
      | ok cards =>
        obtain ⟨m, src, h1, h2, rfl, h3⟩ := deckCardsV_ok hd
        simp only at h
        generalize buildCardsRun upper (splitFirst f '.') (src.map srcCard) _ = q at h
        obtain ⟨b, q⟩ := q
        cases q with
        | error e => cases h
        | ok u =>
          simp only at h
          cases hl : buildFilesV true upper fs fuel a files b.symtab (n + b.errcount) with
          | mk o2 q =>
          rw [hl] at h
          cases h
          obtain ⟨ns, k1, k2⟩ := ih _ _ _ hl
          refine ⟨m :: ns, .cons h1 k1, ?_⟩
          rw [List.filterMap_append, List.filterMap_append, List.filterMap_append, h3, k2]
          have e1 : (b.diags.map fun d => VMsg.msg (SymMsg.diag d)).filterMap extra = [] := by
            have := extras_msgs (b.diags.map fun d => SymMsg.diag d)
            rw [List.map_map] at this
            exact this
          have e2 : ((if a then [.msg (.fileErrs f b.errcount)] else []) :
              List (VMsg SymMsg)).filterMap extra = [] := by split <;> rfl
          rw [e1, e2]
          simp

/-- C152: the symbol tools add for each file what is told while it is read, and nothing else. -/
theorem C152_symbols (upper : Str → Str) (extract : Str → List Str → Nat → List Str)
    (fs : FileSystem) (fuel : Nat) (files : List Str) (out : List (VMsg SymMsg))
    (h : (∃ complex, checkSymbolsV true upper extract fs fuel complex files = (out, .ok ())) ∨
      listSymbolsV true upper fs fuel files = (out, .ok ()) ∨
      ∃ begin end_ fuzzy exact_ symbol, findSymbolsV true upper extract fs fuel begin end_ fuzzy exact_
        (symbol :: files) = (out, .ok ())) :
    ∃ notes, List.Forall₂ (fun f m => Tells fs f true m) files notes ∧
      out.filterMap extra = notes.flatten.map .note := by
  rcases h with ⟨complex, h⟩ | h | ⟨begin, end_, fuzzy, exact_, symbol, h⟩
  · unfold checkSymbolsV at h
    split at h
    · cases h
    · cases hb : buildFilesV true upper fs fuel true files [] 0 with
      | mk o q =>
      obtain ⟨t, n, r⟩ := q
      rw [hb] at h
      cases r with
      | error e => cases h
      | ok u =>
        obtain ⟨ns, k1, k2⟩ := buildFilesV_extra upper fs fuel true files _ _ _ _ _ hb
        cases h
        exact ⟨ns, k1, by rw [List.filterMap_append, extras_msgs, List.append_nil, k2]⟩
  · unfold listSymbolsV at h
    split at h
    · cases h
    · cases hb : buildFilesV true upper fs fuel false files [] 0 with
      | mk o q =>
      obtain ⟨t, n, r⟩ := q
      rw [hb] at h
      cases r with
      | error e => cases h
      | ok u =>
        obtain ⟨ns, k1, k2⟩ := buildFilesV_extra upper fs fuel false files _ _ _ _ _ hb
        simp only at h
        cases ht : tableLines t with
        | error e => rw [ht] at h; cases h
        | ok l =>
          rw [ht] at h
          cases h
          exact ⟨ns, k1, by rw [List.filterMap_append, extras_msgs, List.append_nil, k2]⟩
  · unfold findSymbolsV at h
    split at h
    · cases h
    · cases files with
      | nil => cases h
      | cons f files =>
        simp only at h
        cases hb : buildFilesV true upper fs fuel true (f :: files) [] 0 with
        | mk o q =>
        obtain ⟨t, n, r⟩ := q
        rw [hb] at h
        cases r with
        | error e => cases h
        | ok u =>
          obtain ⟨ns, k1, k2⟩ := buildFilesV_extra upper fs fuel true (f :: files) _ _ _ _ _ hb
          simp only at h
          cases h
          exact ⟨ns, k1, by rw [List.filterMap_append, extras_msgs, List.append_nil, k2]⟩

open Classical in
theorem parseFoldV_extra (debug : Bool) (src : List Src) (s : Nat × Nat × List (VMsg ParseMsg)) :
    ((src.map srcCard).foldl (parseStepV true debug) s).2.2.filterMap extra =
      s.2.2.filterMap extra ++
        (src.filter fun s => decide (Starred s ∧ ∃ i, HasInstr s i)).map skipped := by
  induction src generalizing s with
  | nil => simp
  | cons x src ih =>
    rw [List.map_cons, List.foldl_cons, ih, List.filter_cons]
    have key : (parseStepV true debug s (srcCard x)).2.2.filterMap extra =
        s.2.2.filterMap extra ++ if Starred x ∧ ∃ i, HasInstr x i then [skipped x] else [] := by
      obtain ⟨l, e, o⟩ := s
      have hi := instOf_iff x
      unfold instOf at hi
      unfold parseStepV
      cases hc : (srcCard x).instruction with
      | none =>
        rw [hc] at hi
        have hn : ¬ (Starred x ∧ ∃ i, HasInstr x i) := by rintro ⟨-, i, h⟩; cases (hi i).2 h
        simp [hn]
      | some i =>
        cases i with
        | nil =>
          rw [hc] at hi
          have hn : ¬ (Starred x ∧ ∃ i, HasInstr x i) := by rintro ⟨-, i, h⟩; cases (hi i).2 h
          simp [hn]
        | cons y ys =>
          rw [hc] at hi
          have hp : ((if debug then o ++ [.msg (.inr (.card (srcCard x)))] else o) :
              List (VMsg ParseMsg)).filterMap extra = o.filterMap extra := by
            split
            · rw [List.filterMap_append]; simp [extra]
            · rfl
          simp only
          by_cases hs : Starred x
          · have hy : Starred x ∧ ∃ i, HasInstr x i := ⟨hs, _, (hi _).1 rfl⟩
            rw [if_pos ((starred_iff x).2 hs)]
            simp only [hy, and_self, if_true]
            rw [List.filterMap_append, hp]
            rfl
          · have hn : ¬ (Starred x ∧ ∃ i, HasInstr x i) := fun h => hs h.1
            rw [if_neg (fun h => hs ((starred_iff x).1 h))]
            simp only [hn, if_false, List.append_nil]
            split
            · simp only
              rw [List.filterMap_append, hp]
              simp [extra]
            · exact hp
    rw [key]
    split
    · rename_i h
      rw [if_pos (by simpa using h)]
      simp
    · rename_i h
      rw [if_neg (by simpa using h)]
      simp

open Classical in
theorem parseDecksV_extra (fs : FileSystem) (fuel : Nat) (debug : Bool) (files : List Str)
    (s s' : Nat × Nat × List (VMsg ParseMsg))
    (h : parseDecksV true fs fuel debug files s = (s', .ok ())) :
    ∃ notes srcs, List.Forall₂ (fun f m => Tells fs f true m) files notes ∧
      List.Forall₂ (Expands fs) files srcs ∧
      s'.2.2.filterMap extra = s.2.2.filterMap extra ++
        (List.zipWith (fun m src => m.map Extra.note ++
          (src.filter fun s => decide (Starred s ∧ ∃ i, HasInstr s i)).map skipped)
          notes srcs).flatten := by
  induction files generalizing s with
  | nil => cases h; exact ⟨[], [], .nil, .nil, by simp⟩
  | cons f files ih =>
    obtain ⟨l, e, o⟩ := s
    rw [parseDecksV] at h
    cases hd : deckCardsV (α := ParseMsg) true fs fuel f with
    | mk o' r =>
      rw [hd] at h
      cases r with
      | error e => cases h
      | ok cards =>
        obtain ⟨m, src, h1, h2, rfl, h3⟩ := deckCardsV_ok hd
        obtain ⟨ns, ss, k1, k2, k3⟩ := ih _ h
        refine ⟨m :: ns, src :: ss, .cons h1 k1, .cons h2 k2, ?_⟩
        rw [k3, parseFoldV_extra]
        simp only [List.filterMap_append, h3, List.zipWith_cons_cons, List.flatten_cons,
          List.append_assoc]

theorem parseSymbolsV_extra (upper : Str → Str) (fs : FileSystem) (fuel : Nat) (files : List Str)
    (t : Symtab) (n : Nat) (out : List (VMsg SymMsg)) (n' : Nat)
    (h : parseSymbolsV true upper fs fuel files t n = (out, n', .ok ())) :
    ∃ notes, List.Forall₂ (fun f m => Tells fs f true m) files notes ∧
      out.filterMap extra = notes.flatten.map .note := by
  induction files generalizing t n out with
  | nil => cases h; exact ⟨[], .nil, rfl⟩
  | cons f files ih =>
    rw [parseSymbolsV] at h
    unfold buildV at h
    cases hd : deckCardsV (α := SymMsg) true fs fuel f with
    | mk o r =>
      rw [hd] at h
      cases r with
      | error e => cases h
      | ok cards =>
        obtain ⟨m, src, h1, h2, rfl, h3⟩ := deckCardsV_ok hd
        simp only at h
        generalize buildCardsRun upper (splitFirst f '.') (src.map srcCard) _ = q at h
        obtain ⟨b, q⟩ := q
        cases q with
        | error e => cases h
        | ok u =>
          simp only at h
          cases hl : parseSymbolsV true upper fs fuel files b.symtab b.errcount with
          | mk o2 q =>
          rw [hl] at h
          cases h
          obtain ⟨ns, k1, k2⟩ := ih _ _ _ hl
          refine ⟨m :: ns, .cons h1 k1, ?_⟩
          have e1 : (b.diags.map fun d => VMsg.msg (SymMsg.diag d)).filterMap extra = [] := by
            have := extras_msgs (b.diags.map fun d => SymMsg.diag d)
            rw [List.map_map] at this
            exact this
          simp only [List.filterMap_append, h3, k2, e1, List.flatten_cons, List.map_append]
          simp [extra]

theorem extras_inl (l : List (VMsg SymMsg)) :
    (l.map VMsg.inl).filterMap extra = l.filterMap extra := by
  rw [List.filterMap_map]
  congr 1
  funext x
  cases x <;> rfl

open Classical in
/-- C152: parse reads every file twice: it adds what is told while the symbol tables of all files are
built, and then for each file what is told again and the starred lines that have an instruction. -/
theorem C152_parse (upper : Str → Str) (fs : FileSystem) (fuel : Nat) (debug : Bool)
    (files : List Str) (out : List (VMsg ParseMsg))
    (h : parseV true upper fs fuel debug files = (out, .ok ())) :
    ∃ notes srcs, List.Forall₂ (fun f m => Tells fs f true m) files notes ∧
      List.Forall₂ (Expands fs) files srcs ∧
      out.filterMap extra = notes.flatten.map Extra.note ++
        (List.zipWith (fun m src => m.map Extra.note ++
          (src.filter fun s => decide (Starred s ∧ ∃ i, HasInstr s i)).map skipped)
          notes srcs).flatten := by
  unfold parseV at h
  split at h
  · cases h
  · cases hs : parseSymbolsV true upper fs fuel files [] 0 with
    | mk o q =>
    obtain ⟨n, r⟩ := q
    rw [hs] at h
    cases r with
    | error e => cases h
    | ok u =>
      obtain ⟨ns, k1, k2⟩ := parseSymbolsV_extra upper fs fuel files _ _ _ _ hs
      simp only at h
      cases hd : parseDecksV true fs fuel debug files (0, n, []) with
      | mk s r =>
      obtain ⟨l, e, o'⟩ := s
      rw [hd] at h
      cases r with
      | error e => cases h
      | ok u =>
        obtain ⟨ns', ss, k3, k4, k5⟩ := parseDecksV_extra fs fuel debug files _ _ hd
        have hq : ns' = ns := by
          clear * - k1 k3
          induction k1 generalizing ns' with
          | nil => cases k3; rfl
          | cons h1 _ ih =>
            cases k3 with
            | cons h2 k => rw [(C150_unique fs _ _ _ _ _ h2 h1).2, ih _ k]
        subst hq
        refine ⟨ns', ss, k1, k4, ?_⟩
        cases h
        rw [List.filterMap_append, List.filterMap_append, extras_inl, k2, k5]
        simp [extra]

/-- Cases of C152. -/
example : listInstructionsV true verboseFs 10 false [py "TN", py "A.arg"] =
      ([.reading (py "A.arg"), .meta_ (py "A.arg") 1,
        .starred (srcCard ⟨py "A.arg", 2, py "       *           TN\n"⟩)] ++
        (listInstructionsV false verboseFs 10 false [py "TN", py "A.arg"]).1, .ok ()) ∧
    (listingV true verboseFs 10 [py "A.arg"]).2 =
      ([.reading (py "A.arg"), .meta_ (py "A.arg") 1, .wrote (py "A.lst")], .ok ()) ∧
    ((listSymbolsV true id verboseFs 10 [py "A.arg"]).1.filterMap extra).length = 2 ∧
    (listSymbolsV true id verboseFs 10 [py "A.arg"]).2 = .ok () ∧
    ((parseV true id verboseFs 10 false [py "A.arg"]).1.filterMap extra).length = 5 ∧
    (parseV true id verboseFs 10 false [py "A.arg"]).2 = .ok () := by
  refine ⟨?_, ?_, ?_, ?_, ?_, ?_⟩ <;> decide +kernel

end H800
