import Verif.Props.Parallel

/-!
Property C227: the tools look at the files given and at those that these include, and at no others.
-/

namespace H800

open Spec

/-! ### C227 -/

section

variable {disk d : Disk} {S : Str → Prop} (h : AgreeOn S d disk)
  (hS : ∀ f g, S f → Includes (textFiles (charsOf disk)) f g → S g)

include h hS

theorem checkFilesD_congr (v : Bool) (n : Nat) (opts : CheckOpts) (files : List Str)
    (hf : ∀ f ∈ files, S f) (st : CheckStateV) :
    checkFilesD v d n opts files st = checkFilesD v disk n opts files st := by
  induction files generalizing st with
  | nil => rfl
  | cons f files ih =>
    rw [checkFilesD, checkFilesD, deckCardsD_congr h hS n f (hf f List.mem_cons_self)]
    simp only [ih fun f hm => hf f (List.mem_cons_of_mem _ hm)]

theorem listFilesD_congr (v : Bool) (n : Nat) (details : Bool) (word : Str) (files : List Str)
    (hf : ∀ f ∈ files, S f) :
    listFilesD v d n details word files = listFilesD v disk n details word files := by
  induction files with
  | nil => rfl
  | cons f files ih =>
    rw [listFilesD, listFilesD, deckCardsD_congr h hS n f (hf f List.mem_cons_self),
      ih fun f hm => hf f (List.mem_cons_of_mem _ hm)]

theorem buildD_congr (v : Bool) (upper : Str → Str) (n : Nat) (f : Str) (hf : S f) (t : Symtab) :
    buildD v upper d n f t = buildD v upper disk n f t := by
  rw [buildD, buildD, deckCardsD_congr h hS n f hf]

theorem buildFilesD_congr (v : Bool) (upper : Str → Str) (n : Nat) (a : Bool) (files : List Str)
    (hf : ∀ f ∈ files, S f) (t : Symtab) (k : Nat) :
    buildFilesD v upper d n a files t k = buildFilesD v upper disk n a files t k := by
  induction files generalizing t k with
  | nil => rfl
  | cons f files ih =>
    rw [buildFilesD, buildFilesD, buildD_congr h hS v upper n f (hf f List.mem_cons_self)]
    simp only [ih fun f hm => hf f (List.mem_cons_of_mem _ hm)]

theorem parseDecksD_congr (v : Bool) (n : Nat) (debug : Bool) (files : List Str)
    (hf : ∀ f ∈ files, S f) (st : Nat × Nat × List (VMsg ParseMsg)) :
    parseDecksD v d n debug files st = parseDecksD v disk n debug files st := by
  induction files generalizing st with
  | nil => rfl
  | cons f files ih =>
    rw [parseDecksD, parseDecksD, deckCardsD_congr h hS n f (hf f List.mem_cons_self)]
    simp only [ih fun f hm => hf f (List.mem_cons_of_mem _ hm)]

theorem parseSymbolsD_congr (v : Bool) (upper : Str → Str) (n : Nat) (files : List Str)
    (hf : ∀ f ∈ files, S f) (t : Symtab) (k : Nat) :
    parseSymbolsD v upper d n files t k = parseSymbolsD v upper disk n files t k := by
  induction files generalizing t k with
  | nil => rfl
  | cons f files ih =>
    rw [parseSymbolsD, parseSymbolsD, buildD_congr h hS v upper n f (hf f List.mem_cons_self)]
    simp only [ih fun f hm => hf f (List.mem_cons_of_mem _ hm)]

end

/-- C227, the tools that only read: on two disks with the same files given, and the same files reached
from these by includes, they print the same and end in the same way, whatever else is on the disks. -/
theorem C227_reports (disk d : Disk) (chars : FileSystem) (files : List Str) (hst : Stored disk chars)
    (h : ∀ g, Reached (textFiles chars) files g → d g = disk g) (verbose : Bool) (n : Nat)
    (upper : Str → Str) (extract : Str → List Str → Nat → List Str) (word : Str) :
    (∀ opts, checkInstructionsD verbose d n opts files = checkInstructionsD verbose disk n opts files) ∧
    (∀ details, listInstructionsD verbose d n details (word :: files) =
      listInstructionsD verbose disk n details (word :: files)) ∧
    (∀ complex, checkSymbolsD verbose upper extract d n complex files =
      checkSymbolsD verbose upper extract disk n complex files) ∧
    (∀ b e z x, findSymbolsD verbose upper extract d n b e z x (word :: files) =
      findSymbolsD verbose upper extract disk n b e z x (word :: files)) ∧
    listSymbolsD verbose upper d n files = listSymbolsD verbose upper disk n files ∧
    ∀ debug, parseD verbose upper d n debug files = parseD verbose upper disk n debug files := by
  obtain rfl := stored_iff.1 hst
  have hS : ∀ f g, Reached (textFiles (charsOf disk)) files f →
      Includes (textFiles (charsOf disk)) f g → Reached (textFiles (charsOf disk)) files g :=
    fun _ _ => .include_
  have hf : ∀ f ∈ files, Reached (textFiles (charsOf disk)) files f := fun f => .given
  refine ⟨fun opts => ?_, fun details => ?_, fun complex => ?_, fun b e z x => ?_, ?_, fun debug => ?_⟩
  · rw [checkInstructionsD, checkInstructionsD, checkFilesD_congr h hS _ _ _ _ hf]
  · rw [listInstructionsD, listInstructionsD]
    simp only [listFilesD_congr h hS _ _ _ _ _ hf]
  · rw [checkSymbolsD, checkSymbolsD, buildFilesD_congr h hS _ _ _ _ _ hf]
  · cases files with
    | nil => rfl
    | cons f files =>
      simp only [findSymbolsD, buildFilesD_congr h hS _ _ _ _ _ hf]
  · rw [listSymbolsD, listSymbolsD, buildFilesD_congr h hS _ _ _ _ _ hf]
  · rw [parseD, parseD, parseSymbolsD_congr h hS _ _ _ _ hf]
    simp only [parseDecksD_congr h hS _ _ _ _ hf]

/-- C227, genpages: what it does depends on the file given only, and concerns this file only. -/
theorem C227_genpages (disk d : Disk) (file : Str) (rest rest' : List Str) (n : Nat)
    (h : d file = disk file) :
    (genpagesD d n (file :: rest)).2 = (genpagesD disk n (file :: rest')).2 ∧
    (genpagesD d n (file :: rest)).1 file = (genpagesD disk n (file :: rest')).1 file ∧
    ∀ g, g ≠ file → (genpagesD d n (file :: rest)).1 g = d g := by
  rw [genpagesD, genpagesD]
  rw [h]
  cases hd : disk file with
  | none => exact ⟨rfl, h, fun _ _ => rfl⟩
  | some node =>
    cases node with
    | locked => exact ⟨rfl, h, fun _ _ => rfl⟩
    | dir => exact ⟨rfl, h, fun _ _ => rfl⟩
    | file bytes =>
      dsimp only
      cases utf8Decode bytes with
      | none => exact ⟨rfl, h, fun _ _ => rfl⟩
      | some chars =>
        dsimp only
        cases pagesInfo (fun _ => none) n (readlines (universal chars)) with
        | error e => exact ⟨rfl, h, fun _ _ => rfl⟩
        | ok st =>
          dsimp only
          cases st.section_ with
          | none => exact ⟨rfl, h, fun _ _ => rfl⟩
          | some sec =>
            dsimp only
            cases st.pages with
            | none => exact ⟨rfl, h, fun _ _ => rfl⟩
            | some p =>
              dsimp only
              by_cases hlt : p.1 > p.2
              · rw [if_pos hlt, if_pos hlt]
                exact ⟨rfl, h, fun _ _ => rfl⟩
              · rw [if_neg hlt, if_neg hlt]
                refine ⟨rfl, ?_, fun g hg => if_neg hg⟩
                simp only [if_true]

theorem listing_frame {S : Str → Prop} {disk0 : Disk}
    (hS : ∀ f g, S f → Includes (textFiles (charsOf disk0)) f g → S g) (n : Nat) (files : List Str)
    (hf : ∀ f ∈ files, S f) (hl : ∀ f ∈ files, ¬ S (listfileOf f)) {disk d : Disk}
    (h0 : AgreeOn S disk disk0) (h1 : AgreeOn S d disk0)
    (hk : ∀ f ∈ files, (d (listfileOf f) = some .dir ↔ disk (listfileOf f) = some .dir) ∧
      (d (listfileOf f) = some .locked ↔ disk (listfileOf f) = some .locked)) :
    (listingFilesD n d files).2 = (listingFilesD n disk files).2 ∧
    ∀ g, (listingFilesD n disk files).1 g = disk g ∧ (listingFilesD n d files).1 g = d g ∨
      (listingFilesD n disk files).1 g = (listingFilesD n d files).1 g ∧
        ∃ f ∈ files, g = listfileOf f := by
  induction files generalizing disk d with
  | nil => exact ⟨rfl, fun _ => Or.inl ⟨rfl, rfl⟩⟩
  | cons f files ih =>
    have hfS := hf f List.mem_cons_self
    have hkf := hk f List.mem_cons_self
    simp only [listingFilesD]
    rw [deckCardsD_congr h0 hS n f hfS, deckCardsD_congr h1 hS n f hfS]
    rcases deckCardsD (α := Empty) false disk0 n f with ⟨out, e | cards⟩
    · exact ⟨rfl, fun _ => Or.inl ⟨rfl, rfl⟩⟩
    · dsimp only
      by_cases hw : Writable disk (listfileOf f)
      · have hw' : Writable d (listfileOf f) :=
          ⟨fun e => hw.1 (hkf.1.1 e), fun e => hw.2 (hkf.2.1 e)⟩
        rw [(write_ok hw _).2, (write_ok hw' _).2]
        dsimp only
        generalize encoded (cards.flatMap deckLine) = bytes
        have hne : ∀ g, S g → g ≠ listfileOf f := fun g hg e => hl f List.mem_cons_self (e ▸ hg)
        obtain ⟨ih1, ih2⟩ := @ih (fun f hm => hf f (List.mem_cons_of_mem _ hm))
          (fun f hm => hl f (List.mem_cons_of_mem _ hm)) (putFile disk (listfileOf f) bytes)
          (putFile d (listfileOf f) bytes)
          (fun g hg => (putFile_ne (hne g hg)).trans (h0 g hg))
          (fun g hg => (putFile_ne (hne g hg)).trans (h1 g hg))
          (fun f' hm => by
            by_cases e : listfileOf f' = listfileOf f
            · rw [e, putFile_self, putFile_self]
              exact ⟨Iff.rfl, Iff.rfl⟩
            · rw [putFile_ne e, putFile_ne e]
              exact hk f' (List.mem_cons_of_mem _ hm))
        refine ⟨ih1, fun g => ?_⟩
        rcases ih2 g with ⟨h2, h3⟩ | ⟨h2, f', hf', h3⟩
        · by_cases e : g = listfileOf f
          · subst e
            right
            rw [h2, h3, putFile_self, putFile_self]
            exact ⟨rfl, f, List.mem_cons_self, rfl⟩
          · left
            rw [h2, h3, putFile_ne e, putFile_ne e]
            exact ⟨rfl, rfl⟩
        · exact Or.inr ⟨h2, f', List.mem_cons_of_mem _ hf', h3⟩
      · have : disk (listfileOf f) = some .dir ∨ disk (listfileOf f) = some .locked := by
          unfold Writable at hw
          by_cases e1 : disk (listfileOf f) = some .dir
          · exact Or.inl e1
          · by_cases e2 : disk (listfileOf f) = some .locked
            · exact Or.inr e2
            · exact absurd ⟨e1, e2⟩ hw
        unfold writeD
        rcases this with e | e
        · rw [e, hkf.1.2 e]
          exact ⟨rfl, fun _ => Or.inl ⟨rfl, rfl⟩⟩
        · rw [e, hkf.2.2 e]
          exact ⟨rfl, fun _ => Or.inl ⟨rfl, rfl⟩⟩

/-- C227, listing, if none of the listings is among the files read: on two disks with the same files
given and reached from these, and the same directories and locked files among the listings, it writes the
same listings and ends in the same way, and no other file is changed. -/
theorem C227_listing (disk d : Disk) (chars : FileSystem) (files : List Str) (hst : Stored disk chars)
    (h : ∀ g, Reached (textFiles chars) files g → d g = disk g)
    (hr : ∀ f ∈ files, ∀ g, ListingName f g → ¬ Reached (textFiles chars) files g)
    (hk : ∀ f ∈ files, ∀ g, ListingName f g → (d g = some .dir ↔ disk g = some .dir) ∧
      (d g = some .locked ↔ disk g = some .locked)) (n : Nat) :
    (listingD d n files).2 = (listingD disk n files).2 ∧
    (∀ g, (listingD disk n files).1 g = disk g ∧ (listingD d n files).1 g = d g ∨
      (listingD disk n files).1 g = (listingD d n files).1 g ∧ ∃ f ∈ files, ListingName f g) := by
  obtain rfl := stored_iff.1 hst
  unfold listingD
  by_cases hl : files.length < 1
  · rw [if_pos hl, if_pos hl]
    exact ⟨rfl, fun _ => Or.inl ⟨rfl, rfl⟩⟩
  · rw [if_neg hl, if_neg hl]
    obtain ⟨h1, h2⟩ := listing_frame (S := Reached (textFiles (charsOf disk)) files) (disk0 := disk)
      (fun _ _ => .include_) n files (fun f => .given)
      (fun f hf => hr f hf _ (listfileOf_spec f)) (fun _ _ => rfl) h
      (fun f hf => hk f hf _ (listfileOf_spec f))
    refine ⟨h1, fun g => ?_⟩
    rcases h2 g with h2 | ⟨h2, f, hf, rfl⟩
    · exact Or.inl h2
    · exact Or.inr ⟨h2, f, hf, listfileOf_spec f⟩

/-- The hypotheses of C227 for a deck, and a disk on which another deck is different. -/
example : ∃ chars d, Stored twoDecks chars ∧
    (∀ g, Reached (textFiles chars) [py "a.x"] g → d g = twoDecks g) ∧ d ≠ twoDecks ∧
    (∀ f ∈ [py "a.x"], ∀ g, ListingName f g → ¬ Reached (textFiles chars) [py "a.x"] g) := by
  have hr : ∀ g, Reached (textFiles (charsOf twoDecks)) [py "a.x"] g → g = py "a.x" := by
    intro g hg
    induction hg with
    | given h => simpa using h
    | include_ h1 h2 ih =>
      subst ih
      obtain ⟨text, ht, l, hl, -⟩ := h2
      have : textFiles (charsOf twoDecks) (py "a.x") = some (py "AB\n") := by decide +kernel
      rw [this] at ht
      cases ht
      have : readlines (py "AB\n") = [py "AB\n"] := by decide
      rw [this] at hl
      simp at hl
  refine ⟨_, putFile twoDecks (py "b.x") [], stored_iff.2 rfl, ?_, ?_, ?_⟩
  · intro g hg
    rw [hr g hg]
    rfl
  · intro h
    have := congrFun h (py "b.x")
    revert this
    decide +kernel
  · intro f hf g hg hg'
    rw [List.mem_singleton] at hf
    subst hf
    have := listingName_unique hg (listfileOf_spec _)
    subst this
    exact absurd (hr _ hg') (by decide)

end H800
