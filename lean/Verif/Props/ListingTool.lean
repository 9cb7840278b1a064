import Verif.Lemmas.ListingTool

/-!
Properties C83, C94: listing.
-/

namespace H800

open Spec

/-- C83, in full: listing a file does not change it. -/
def C83_statement : Prop := ∀ (fs : FileSystem) (fuel : Nat) (file : Str),
  (listingMain fs fuel [file]).1 file = fs file

/-- A file system with a source called "A.lst". -/
def lstFs : FileSystem := fun f =>
  if f = py "A.lst" ∨ f = py "A.arg" then some (py "        B          TN\n") else none

/-- C83 is false: a source file whose name ends with ".lst" is overwritten. -/
theorem C83_refuted : ¬ C83_statement := by
  intro h
  have := h lstFs 10 (py "A.lst")
  revert this
  decide +kernel

/-- C83, what holds: the file written is named after the source, up to its last dot; that is the
source itself exactly if its name ends with ".lst". -/
theorem C83_exact_partial (file : Str) : ListingName file (listfileOf file) ∧
    (listfileOf file = file ↔ ∃ p, file = p ++ py ".lst") := by
  refine ⟨listfileOf_spec file, ?_⟩
  rw [← listingName_self]
  constructor
  · intro h; rw [← h]; exact h.symm ▸ listfileOf_spec file
  · intro h; exact listingName_unique (listfileOf_spec file) h

/-- C83: whatever happens, only files that are the listing of an argument change. -/
theorem C83_others_partial (fs : FileSystem) (fuel : Nat) (args : List Str) (g : Str)
    (hg : ∀ f ∈ args, ¬ ListingName f g) : (listingMain fs fuel args).1 g = fs g := by
  unfold listingMain
  split
  · rfl
  · rename_i hl
    clear hl
    induction args generalizing fs with
    | nil => rfl
    | cons f args ih =>
      rw [listingFiles]
      split
      · rfl
      · rw [ih _ fun x hx => hg x (List.mem_cons_of_mem _ hx)]
        unfold writeFile
        rw [if_neg]
        rintro rfl
        exact hg f List.mem_cons_self (listfileOf_spec f)

/-- C83: so if a file's name does not end with ".lst" it stays as it is, in particular if it is an
argument. -/
theorem C83_sources_partial (fs : FileSystem) (fuel : Nat) (args : List Str) (g : Str)
    (hg : ¬ ∃ p, g = p ++ py ".lst") : (listingMain fs fuel args).1 g = fs g := by
  apply C83_others_partial
  rintro f - ⟨p, rfl, -⟩
  exact hg ⟨p, rfl⟩

example : ¬ ∃ p, py "A.arg" = p ++ py ".lst" := by
  rintro ⟨p, h⟩
  have := congrArg List.reverse h
  rw [List.reverse_append] at this
  exact absurd (congrArg List.head? this) (by simp)

/-- C94: the listing of each file, read after the listings of the files before it have been written,
has one line for each of its source lines, in order: file name, line number and text in columns. -/
theorem C94_contents (fs fs' : FileSystem) (fuel : Nat) (args : List Str)
    (h : listingMain fs fuel args = (fs', .ok ())) : args ≠ [] ∧ Listed fs args fs' := by
  unfold listingMain at h
  split at h
  · cases h
  · rename_i hl
    refine ⟨by rintro rfl; simp at hl, ?_⟩
    clear hl
    induction args generalizing fs with
    | nil => cases h; exact .nil _
    | cons f args ih =>
      rw [listingFiles] at h
      cases hd : deckCards fs fuel f with
      | error e => rw [hd] at h; cases h
      | ok cs =>
        rw [hd] at h
        obtain ⟨-, out, ho, rfl⟩ := deckCards_ok hd
        obtain ⟨ls, h1, h2⟩ := deckLines_spec out
        refine .cons ho (listfileOf_spec f) h1 ?_ ?_ (ih _ h)
        · unfold writeFile
          rw [if_pos rfl, h2]
        · intro g hg
          unfold writeFile
          rw [if_neg hg]

/-- C94: listing a file that can be read succeeds. -/
theorem C94_completes (fs : FileSystem) (file : Str) (hne : file ≠ []) (out : List Src)
    (h : Expands fs file out) :
    ∃ n fs', ∀ m, n ≤ m → listingMain fs m [file] = (fs', .ok ()) := by
  obtain ⟨n, hn⟩ := deckCards_complete hne h
  refine ⟨n, writeFile fs (listfileOf file) ((out.map srcCard).flatMap deckLine), fun m hm => ?_⟩
  unfold listingMain
  rw [if_neg (by simp), listingFiles, hn m hm]
  rfl

example : (listingMain lstFs 10 [py "A.arg"]).1 (py "A.lst") =
    some (padRight 64 (py "A.arg") ++ py " 1              B          TN\n") := by decide +kernel

end H800
