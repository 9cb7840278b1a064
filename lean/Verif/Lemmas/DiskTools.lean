import Verif.Lemmas.Disk
import Verif.Lemmas.GenPages

/-!
The tools on the disk and on the texts of its files.
-/

namespace H800

open Spec

theorem isFile_false {disk : Disk} {g : Str} :
    isFile disk g = false ↔ disk g = none ∨ disk g = some .dir := by
  unfold isFile
  cases disk g with
  | none => simp
  | some n => cases n <;> simp

section
variable {disk : Disk} {v : Bool} {α β γ : Type}

theorem sameRun_of {x : List (VMsg α) × Except Stop β} {y : List (VMsg α) × Py β}
    {z : Except (Option Str) Unit} (h : DiskRel disk v true x y z) : SameRun disk v x y := by
  cases h with
  | ok out b => exact .ends _ _
  | raised out e => exact .raises _ _
  | exit out h1 h2 => exact .missing _ (isFile_false.1 h1) h2
  | cut out h1 h2 =>
    cases h1 with
    | denied h => simpa using SameRun.denied (disk := disk) (verbose := v) out (.denied h)
    | decode h hn => simpa using SameRun.decode (disk := disk) (verbose := v) out (.decode h hn)
  | deep out h1 h2 h => exact .deep _ h1
  | lost x out h => cases h

/-- More output before. -/
theorem sameRun_pre {x : List (VMsg α) × Except Stop β} {y : List (VMsg α) × Py β}
    (pre : List (VMsg α)) (h : SameRun disk v x y) :
    SameRun disk v (pre ++ x.1, x.2) (pre ++ y.1, y.2) := by
  cases h with
  | ends out b => exact .ends _ _
  | raises out e => exact .raises _ _
  | missing out h1 h2 => exact .missing _ h1 h2
  | denied out h => exact .denied _ h
  | decode out h =>
    have := SameRun.decode (disk := disk) (verbose := v) (β := β) (pre ++ out) h
    rwa [List.append_assoc] at this
  | deep out h => exact .deep _ h

theorem sameRun_error {o o' : List (VMsg α)} {e : Stop} {e' : PyErr}
    (h : SameRun disk v (o, (.error e : Except Stop β)) (o', .error e')) :
    SameRun disk v (o, (.error e : Except Stop γ)) (o', .error e') := by
  cases h with
  | raises => exact .raises _ _
  | missing _ h h' => exact .missing _ h h'
  | denied _ h => exact .denied _ h
  | decode _ h => exact .decode _ h
  | deep _ h => exact .deep _ h

theorem sameRun_ok {o o' : List (VMsg α)} {a b : β}
    (h : SameRun disk v (o, (.ok a : Except Stop β)) (o', .ok b)) : o = o' ∧ a = b := by
  cases h with
  | ends => exact ⟨rfl, rfl⟩

theorem sameRun_ok_error {o o' : List (VMsg α)} {a : β} {e : PyErr}
    (h : SameRun disk v (o, (.ok a : Except Stop β)) (o', .error e)) : False := by
  cases h

theorem sameRun_error_ok {o o' : List (VMsg α)} {a : β} {e : Stop}
    (h : SameRun disk v (o, (.error e : Except Stop β)) (o', .ok a)) : False := by
  cases h

theorem deckCardsD_same (n : Nat) (f : Str) :
    SameRun disk v (deckCardsD (α := α) v disk n f)
      (deckCardsV v (textFiles (charsOf disk)) n f) := by
  cases f with
  | nil => exact .raises _ _
  | cons c cs =>
    have h := sameRun_of (readSourceD_rel (α := α) (disk := disk) (v := v) (q := true) n n (Nat.le_refl n)
      (by simp) (c :: cs))
    rw [deckCardsD, deckCardsV]
    revert h
    generalize readSourceD v disk n (c :: cs) = x
    generalize Deck.readSourceV v (textFiles (charsOf disk)) argusClass DEFAULT_WIDTH DEFAULT_FIELDS n true
      (c :: cs) = y
    intro h
    cases h with
    | ends out b =>
      dsimp only
      split
      · rename_i hr
        rw [hr]
        exact .ends _ _
      · rename_i hr
        rw [hr]
        exact .raises _ _
    | raises out e => exact .raises _ _
    | missing out h h' => exact .missing _ h h'
    | denied out h => exact .denied _ h
    | decode out h => exact .decode _ h
    | deep out h => exact .deep _ h

/-! ### The instruction tools -/

theorem checkFilesD_same (n : Nat) (opts : CheckOpts) (files : List Str) (st : CheckStateV) :
    SameRun disk v
      ((checkFilesD v disk n opts files st).1.out,
        (checkFilesD v disk n opts files st).2.map fun _ => (checkFilesD v disk n opts files st).1)
      ((checkFilesV v (textFiles (charsOf disk)) n opts files st).1.out,
        (checkFilesV v (textFiles (charsOf disk)) n opts files st).2.map fun _ =>
          (checkFilesV v (textFiles (charsOf disk)) n opts files st).1) := by
  induction files generalizing st with
  | nil => exact .ends _ _
  | cons f files ih =>
    have h := deckCardsD_same (α := CheckMsg) (disk := disk) (v := v) n f
    rw [checkFilesD, checkFilesV]
    revert h
    generalize deckCardsD v disk n f = x
    generalize deckCardsV v (textFiles (charsOf disk)) n f = y
    intro h
    cases h with
    | ends out b => exact ih _
    | raises out e => exact .raises _ _
    | missing out h h' => exact .missing _ h h'
    | denied out h => exact .denied _ h
    | decode out h =>
      have := SameRun.decode (disk := disk) (verbose := v) (β := CheckStateV) (st.out ++ out) h
      rwa [List.append_assoc] at this
    | deep out h => exact .deep _ h

theorem checkInstructionsD_same (n : Nat) (opts : CheckOpts) (args : List Str) :
    SameRun disk v (checkInstructionsD v disk n opts args)
      (checkInstructionsV v (textFiles (charsOf disk)) n opts args) := by
  rw [checkInstructionsD, checkInstructionsV]
  split
  · exact .raises _ _
  · have h := checkFilesD_same (disk := disk) (v := v) n opts args CheckStateV.init
    revert h
    generalize checkFilesD v disk n opts args CheckStateV.init = x
    generalize checkFilesV v (textFiles (charsOf disk)) n opts args CheckStateV.init = y
    rcases x with ⟨sx, _ | _⟩ <;> rcases y with ⟨sy, _ | _⟩ <;> intro h <;>
      simp only [Except.map] at h ⊢
    · exact sameRun_error h
    · exact (sameRun_error_ok h).elim
    · exact (sameRun_ok_error h).elim
    · obtain ⟨-, rfl⟩ := sameRun_ok h
      split
      · split
        · rename_i hl
          split
          · rename_i hl'
            rw [hl] at hl'
            cases hl'
            exact .raises _ _
          · rename_i hl'
            rw [hl] at hl'
            cases hl'
        · rename_i hl
          split
          · rename_i hl'
            rw [hl] at hl'
            cases hl'
          · rename_i hl'
            rw [hl] at hl'
            cases hl'
            exact .ends _ _
      · exact .ends _ _

theorem listFilesD_same (n : Nat) (details : Bool) (opcode : Str) (files : List Str) :
    SameRun disk v (listFilesD v disk n details opcode files)
      (listFilesV v (textFiles (charsOf disk)) n details opcode files) := by
  induction files with
  | nil => exact .ends _ _
  | cons f files ih =>
    have h := deckCardsD_same (α := Str) (disk := disk) (v := v) n f
    rw [listFilesD, listFilesV]
    revert h
    generalize deckCardsD v disk n f = x
    generalize deckCardsV v (textFiles (charsOf disk)) n f = y
    intro h
    cases h with
    | ends out b => exact sameRun_pre _ ih
    | raises out e => exact .raises _ _
    | missing out h h' => exact .missing _ h h'
    | denied out h => exact .denied _ h
    | decode out h => exact .decode _ h
    | deep out h => exact .deep _ h

theorem listInstructionsD_same (n : Nat) (details : Bool) (args : List Str) :
    SameRun disk v (listInstructionsD v disk n details args)
      (listInstructionsV v (textFiles (charsOf disk)) n details args) := by
  cases args with
  | nil => exact .raises _ _
  | cons opcode files =>
    rw [listInstructionsD, listInstructionsV]
    generalize (if opcode.contains ',' then splitFirst opcode ',' else opcode) = command
    split
    · exact .raises _ _
    · exact listFilesD_same _ _ _ _

/-! ### The symbol tools -/

/-- What is carried on after a part of a run that ends. -/
def carried {ε σ : Type} (x : List (VMsg α) × σ × Except ε Unit) : List (VMsg α) × Except ε σ :=
  (x.1, x.2.2.map fun _ => x.2.1)

theorem buildD_same (upper : Str → Str) (n : Nat) (f : Str) (symtab : Symtab) :
    SameRun disk v (carried (buildD v upper disk n f symtab))
      (carried (buildV v upper (textFiles (charsOf disk)) n f symtab)) := by
  have h := deckCardsD_same (α := SymMsg) (disk := disk) (v := v) n f
  rw [buildD, buildV]
  revert h
  generalize deckCardsD v disk n f = x
  generalize deckCardsV v (textFiles (charsOf disk)) n f = y
  intro h
  cases h with
  | ends out b =>
    dsimp only
    generalize buildCardsRun upper (splitFirst f '.') b ⟨symtab, py "1", 0, []⟩ = r
    rcases r with ⟨b', _ | _⟩
    · exact .raises _ _
    · exact .ends _ _
  | raises out e => exact .raises _ _
  | missing out h h' => exact .missing _ h h'
  | denied out h => exact .denied _ h
  | decode out h => exact .decode _ h
  | deep out h => exact .deep _ h

/-- The variables at the end of the loop over the files, as one value. -/
def carried2 {ε σ τ : Type} (x : List (VMsg α) × σ × τ × Except ε Unit) :
    List (VMsg α) × Except ε (σ × τ) :=
  (x.1, x.2.2.2.map fun _ => (x.2.1, x.2.2.1))

theorem buildFilesD_same (upper : Str → Str) (n : Nat) (announce : Bool) (files : List Str)
    (symtab : Symtab) (k : Nat) :
    SameRun disk v (carried2 (buildFilesD v upper disk n announce files symtab k))
      (carried2 (buildFilesV v upper (textFiles (charsOf disk)) n announce files symtab k)) := by
  induction files generalizing symtab k with
  | nil => exact .ends _ _
  | cons f files ih =>
    have h := buildD_same (disk := disk) (v := v) upper n f symtab
    rw [buildFilesD, buildFilesV]
    revert h
    generalize buildD v upper disk n f symtab = x
    generalize buildV v upper (textFiles (charsOf disk)) n f symtab = y
    rcases x with ⟨ox, bx, _ | _⟩ <;> rcases y with ⟨oy, b', _ | _⟩ <;> intro h <;>
      simp only [carried, Except.map] at h
    · exact sameRun_error h
    · cases h
    · cases h
    · cases h
      exact sameRun_pre _ (ih _ _)

theorem checkSymbolsD_same (upper : Str → Str) (extract : Str → List Str → Nat → List Str) (n : Nat)
    (complex : Bool) (args : List Str) :
    SameRun disk v (checkSymbolsD v upper extract disk n complex args)
      (checkSymbolsV v upper extract (textFiles (charsOf disk)) n complex args) := by
  rw [checkSymbolsD, checkSymbolsV]
  split
  · exact .raises _ _
  · have h := buildFilesD_same (disk := disk) (v := v) upper n true args [] 0
    revert h
    generalize buildFilesD v upper disk n true args [] 0 = x
    generalize buildFilesV v upper (textFiles (charsOf disk)) n true args [] 0 = y
    rcases x with ⟨ox, sx, kx, _ | _⟩ <;> rcases y with ⟨oy, sy, ky, _ | _⟩ <;> intro h <;>
      simp only [carried2, Except.map] at h
    · exact sameRun_error h
    · cases h
    · cases h
    · cases h
      exact .ends _ _

theorem findSymbolsD_same (upper : Str → Str) (extract : Str → List Str → Nat → List Str) (n : Nat)
    (begin end_ fuzzy exact : Bool) (args : List Str) :
    SameRun disk v (findSymbolsD v upper extract disk n begin end_ fuzzy exact args)
      (findSymbolsV v upper extract (textFiles (charsOf disk)) n begin end_ fuzzy exact args) := by
  unfold findSymbolsD findSymbolsV
  split
  · exact .raises _ _
  · match args with
    | [] => exact .raises _ _
    | [_] => exact .raises _ _
    | symbol :: f :: files =>
      dsimp only
      have h := buildFilesD_same (disk := disk) (v := v) upper n true (f :: files) [] 0
      revert h
      generalize buildFilesD v upper disk n true (f :: files) [] 0 = x
      generalize buildFilesV v upper (textFiles (charsOf disk)) n true (f :: files) [] 0 = y
      rcases x with ⟨ox, sx, kx, _ | _⟩ <;> rcases y with ⟨oy, sy, ky, _ | _⟩ <;> intro h <;>
        simp only [carried2, Except.map] at h
      · exact sameRun_error h
      · cases h
      · cases h
      · cases h
        exact .ends _ _

theorem listSymbolsD_same (upper : Str → Str) (n : Nat) (args : List Str) :
    SameRun disk v (listSymbolsD v upper disk n args)
      (listSymbolsV v upper (textFiles (charsOf disk)) n args) := by
  rw [listSymbolsD, listSymbolsV]
  split
  · exact .raises _ _
  · have h := buildFilesD_same (disk := disk) (v := v) upper n false args [] 0
    revert h
    generalize buildFilesD v upper disk n false args [] 0 = x
    generalize buildFilesV v upper (textFiles (charsOf disk)) n false args [] 0 = y
    rcases x with ⟨ox, sx, kx, _ | _⟩ <;> rcases y with ⟨oy, sy, ky, _ | _⟩ <;> intro h <;>
      simp only [carried2, Except.map] at h
    · exact sameRun_error h
    · cases h
    · cases h
    · cases h
      dsimp only
      cases tableLines sx with
      | error e => exact .raises _ _
      | ok l => exact .ends _ _

/-! ### parse.py -/

theorem parseSymbolsD_same (upper : Str → Str) (n : Nat) (files : List Str) (symtab : Symtab) (k : Nat) :
    SameRun disk v (carried (parseSymbolsD v upper disk n files symtab k))
      (carried (parseSymbolsV v upper (textFiles (charsOf disk)) n files symtab k)) := by
  induction files generalizing symtab k with
  | nil => exact .ends _ _
  | cons f files ih =>
    have h := buildD_same (disk := disk) (v := v) upper n f symtab
    rw [parseSymbolsD, parseSymbolsV]
    revert h
    generalize buildD v upper disk n f symtab = x
    generalize buildV v upper (textFiles (charsOf disk)) n f symtab = y
    rcases x with ⟨ox, bx, _ | _⟩ <;> rcases y with ⟨oy, b', _ | _⟩ <;> intro h <;>
      simp only [carried, Except.map] at h
    · exact sameRun_error h
    · cases h
    · cases h
    · cases h
      exact sameRun_pre _ (ih _ _)

theorem parseDecksD_same (n : Nat) (debug : Bool) (files : List Str)
    (st : Nat × Nat × List (VMsg ParseMsg)) :
    SameRun disk v
      ((parseDecksD v disk n debug files st).1.2.2,
        (parseDecksD v disk n debug files st).2.map fun _ => (parseDecksD v disk n debug files st).1)
      ((parseDecksV v (textFiles (charsOf disk)) n debug files st).1.2.2,
        (parseDecksV v (textFiles (charsOf disk)) n debug files st).2.map fun _ =>
          (parseDecksV v (textFiles (charsOf disk)) n debug files st).1) := by
  induction files generalizing st with
  | nil => exact .ends _ _
  | cons f files ih =>
    rcases st with ⟨lc, ec, out0⟩
    have h := deckCardsD_same (α := ParseMsg) (disk := disk) (v := v) n f
    rw [parseDecksD, parseDecksV]
    revert h
    generalize deckCardsD v disk n f = x
    generalize deckCardsV v (textFiles (charsOf disk)) n f = y
    intro h
    cases h with
    | ends out b => exact ih _
    | raises out e => exact .raises _ _
    | missing out h h' => exact .missing _ h h'
    | denied out h => exact .denied _ h
    | decode out h =>
      have := SameRun.decode (disk := disk) (verbose := v) (β := Nat × Nat × List (VMsg ParseMsg))
        (out0 ++ out) h
      rwa [List.append_assoc] at this
    | deep out h => exact .deep _ h

theorem sameRun_inl {o o' : List (VMsg SymMsg)} {e : Stop} {e' : PyErr}
    (h : SameRun disk v (o, (.error e : Except Stop β)) (o', .error e')) :
    SameRun disk v (o.map VMsg.inl, (.error e : Except Stop γ)) (o'.map VMsg.inl, .error e') := by
  cases h with
  | raises => exact .raises _ _
  | missing _ h h' => exact .missing _ h h'
  | denied _ h => exact .denied _ h
  | @decode _ g h =>
    rw [List.map_append]
    have : (if v then [VMsg.reading g] else []).map VMsg.inl = if v then [VMsg.reading g] else [] := by
      cases v <;> rfl
    rw [this]
    exact .decode _ h
  | deep _ h => exact .deep _ h

theorem parseD_same (upper : Str → Str) (n : Nat) (debug : Bool) (args : List Str) :
    SameRun disk v (parseD v upper disk n debug args)
      (parseV v upper (textFiles (charsOf disk)) n debug args) := by
  rw [parseD, parseV]
  split
  · exact .raises _ _
  · have h := parseSymbolsD_same (disk := disk) (v := v) upper n args [] 0
    revert h
    generalize parseSymbolsD v upper disk n args [] 0 = x
    generalize parseSymbolsV v upper (textFiles (charsOf disk)) n args [] 0 = y
    rcases x with ⟨ox, kx, _ | _⟩ <;> rcases y with ⟨oy, ky, _ | _⟩ <;> intro h <;>
      simp only [carried, Except.map] at h
    · exact sameRun_inl h
    · cases h
    · cases h
    · cases h
      dsimp only
      have h := parseDecksD_same (disk := disk) (v := v) n debug args (0, kx, [])
      revert h
      generalize parseDecksD v disk n debug args (0, kx, []) = x
      generalize parseDecksV v (textFiles (charsOf disk)) n debug args (0, kx, []) = y
      rcases x with ⟨⟨lx, ex, o1⟩, _ | _⟩ <;> rcases y with ⟨⟨ly, ey, o2⟩, _ | _⟩ <;> intro h <;>
        simp only [Except.map] at h
      · exact sameRun_pre _ (sameRun_error h)
      · cases h
      · cases h
      · cases h
        exact .ends _ _

/-! ### listing.py and genpages.py -/

theorem stored_write {chars : FileSystem} {name text : Str} {bytes : List UInt8}
    (hb : bytes = encoded text) (h : Stored disk chars) :
    Stored (fun f => if f = name then some (.file bytes) else disk f) (writeFile chars name text) := by
  intro f s
  unfold writeFile
  dsimp only
  by_cases hf : f = name
  · rw [if_pos hf, if_pos hf, hb]
    constructor
    · rintro ⟨⟩; rfl
    · intro e
      have : encoded text = encoded s := by simpa using e
      have h1 := utf8Decode_iff.2 (rfl : encoded text = encoded text)
      rw [this, utf8Decode_iff.2 rfl] at h1
      cases h1
      rfl
  · rw [if_neg hf, if_neg hf]
    exact h f s

theorem sameRun_quiet {o o' : List (VMsg α)} {r : Except Stop β} {r' : Py β}
    (h : SameRun disk false (o, r) (o', r')) :
    SameRun disk false (([] : List (VMsg γ)), r) ([], r') := by
  cases h with
  | ends => exact .ends _ _
  | raises => exact .raises _ _
  | missing _ h h' => exact .missing _ h h'
  | denied _ h => exact .denied _ h
  | decode _ h => exact .decode [] h
  | deep _ h => exact .deep _ h

theorem deckCardsD_false (disk : Disk) (n : Nat) (f : Str) :
    SameRun disk false (([] : List (VMsg Empty)), (deckCardsD (α := Empty) false disk n f).2)
      ([], deckCards (textFiles (charsOf disk)) n f) := by
  have h := deckCardsD_same (α := Empty) (disk := disk) (v := false) n f
  rw [← deckCardsV_snd (α := Empty) false]
  exact sameRun_quiet h

theorem listingFilesD_same (n : Nat) (files : List Str) (disk : Disk) (chars : FileSystem)
    (hs : Stored disk chars)
    (hw : ∀ f ∈ files, disk (listfileOf f) ≠ some .dir ∧ disk (listfileOf f) ≠ some .locked) :
    Stored (listingFilesD n disk files).1 (listingFilesDisk n chars files).1 ∧
    SameRun (listingFilesD n disk files).1 false
      (([] : List (VMsg Empty)), (listingFilesD n disk files).2)
      ([], (listingFilesDisk n chars files).2) := by
  induction files generalizing disk chars with
  | nil => exact ⟨hs, .ends _ _⟩
  | cons f files ih =>
    have h := deckCardsD_false disk n f
    rw [← stored_iff.1 hs] at h
    rw [listingFilesD, listingFilesDisk]
    generalize deckCardsD false disk n f = x at h
    generalize deckCards (textFiles chars) n f = y at h
    rcases x with ⟨o, _ | cards⟩ <;> rcases y with _ | cards'
    · exact ⟨hs, sameRun_error h⟩
    · exact (sameRun_error_ok h).elim
    · exact (sameRun_ok_error h).elim
    · obtain ⟨-, rfl⟩ := sameRun_ok h
      have e : writeD disk (listfileOf f) (cards.flatMap deckLine) =
          (fun g => if g = listfileOf f then
            some (.file (utf8Encode (cards.flatMap deckLine))) else disk g, .ok ()) := by
        unfold writeD
        have := hw f (List.mem_cons_self ..)
        cases hd : disk (listfileOf f) with
        | none => rfl
        | some nd => cases nd with
          | file b => rfl
          | locked => exact absurd hd this.2
          | dir => exact absurd hd this.1
      dsimp only
      rw [e]
      refine ih _ _ (stored_write (utf8Encode_encoded _) hs) fun g hg => ?_
      by_cases he : listfileOf g = listfileOf f
      · rw [if_pos he]; exact ⟨by simp, by simp⟩
      · rw [if_neg he]; exact hw g (List.mem_cons_of_mem _ hg)

theorem listingFilesD_keeps (n : Nat) (files : List Str) (disk : Disk) {g : Str}
    (h : disk g = some .dir ∨ disk g = some .locked) : (listingFilesD n disk files).1 g = disk g := by
  induction files generalizing disk with
  | nil => rfl
  | cons f files ih =>
    rw [listingFilesD]
    rcases deckCardsD (α := Empty) false disk n f with ⟨o, _ | cards⟩
    · rfl
    · dsimp only
      unfold writeD
      cases hd : disk (listfileOf f) with
      | some nd => cases nd with
        | dir => rfl
        | locked => rfl
        | file b =>
          have hg : g ≠ listfileOf f := by rintro rfl; rw [hd] at h; rcases h with h | h <;> cases h
          dsimp only
          rw [ih _ (by rwa [if_neg hg]), if_neg hg]
      | none =>
        have hg : g ≠ listfileOf f := by rintro rfl; rw [hd] at h; rcases h with h | h <;> cases h
        dsimp only
        rw [ih _ (by rwa [if_neg hg]), if_neg hg]

theorem listingFilesD_append (n : Nat) (pre post : List Str) (disk : Disk) :
    listingFilesD n disk (pre ++ post) =
      match listingFilesD n disk pre with
      | (d, .error e) => (d, .error e)
      | (d, .ok _) => listingFilesD n d post := by
  induction pre generalizing disk with
  | nil => rfl
  | cons f pre ih =>
    rw [List.cons_append, listingFilesD, listingFilesD]
    rcases deckCardsD (α := Empty) false disk n f with ⟨o, _ | cards⟩
    · rfl
    · dsimp only
      rcases writeD disk (listfileOf f) (cards.flatMap deckLine) with ⟨d, _ | _⟩
      · rfl
      · exact ih d

theorem genpagesD_same (disk : Disk) (chars : FileSystem) (hs : Stored disk chars) (n : Nat)
    (f : Str) (rest : List Str) :
    (disk f = some .dir → genpagesD disk n (f :: rest) = (disk, .error .isDir)) ∧
    (∀ s, Unreadable disk f s → genpagesD disk n (f :: rest) = (disk, .error s)) ∧
    (disk f ≠ some .dir → (∀ s, ¬ Unreadable disk f s) →
      Stored (genpagesD disk n (f :: rest)).1 (genpagesDisk chars n (f :: rest)).1 ∧
      (genpagesD disk n (f :: rest)).2 =
        (match (genpagesDisk chars n (f :: rest)).2 with
        | .ok _ => .ok ()
        | .error e => .error (.raised e))) := by
  rw [genpagesD, genpagesDisk]
  refine ⟨fun h => by rw [h], fun s h => ?_, fun h1 h2 => ?_⟩
  · cases h with
    | denied h => rw [h]
    | decode h hn =>
      rw [h]
      dsimp only
      cases hd : utf8Decode _ with
      | none => rfl
      | some t => exact absurd (utf8Decode_iff.1 hd) (hn t)
  · cases hd : disk f with
    | none =>
      have hc : chars f = none := by
        rw [stored_iff.1 hs, charsOf, hd]
      rw [hc]
      exact ⟨hs, rfl⟩
    | some nd => cases nd with
      | dir => exact absurd hd h1
      | locked => exact absurd (.denied hd) (h2 _)
      | file b =>
        cases hb : utf8Decode b with
        | none => exact absurd (.decode hd fun s e => by rw [utf8Decode_iff.2 e] at hb; cases hb) (h2 _)
        | some t =>
          have hc : chars f = some t := by
            rw [stored_iff.1 hs, charsOf, hd]
            exact hb
          rw [hc]
          dsimp only
          rw [hb]
          dsimp only
          rw [pagesInfo_eq, pagesInfo_eq]
          cases List.foldlM pagesStep ⟨(logOf (readlines (universal t))).1,
            (logOf (readlines (universal t))).2, none⟩ (readlines (universal t)) with
          | error e => exact ⟨hs, rfl⟩
          | ok st =>
            dsimp only
            cases st.section_ with
            | none => exact ⟨hs, rfl⟩
            | some sec =>
              cases st.pages with
              | none => exact ⟨hs, rfl⟩
              | some p =>
                rcases p with ⟨a, z⟩
                dsimp only
                by_cases hp : a > z
                · rw [if_pos hp, if_pos hp]
                  exact ⟨hs, rfl⟩
                · rw [if_neg hp, if_neg hp]
                  refine ⟨stored_write ?_ hs, rfl⟩
                  rw [utf8Decode_iff.1 hb, utf8Encode_encoded]
                  simp [encoded]

end

end H800
