import Verif.Lemmas.DiskTools
import Verif.Lemmas.LastWords

/-!
The tools on what is on a disk (C215 and C216).
-/

namespace H800

open Spec

/-! ### C215: what is said of a file that cannot be read -/

/-- C215: a tool that says that a file does not exist is right, and a tool that cannot read a file says
so. -/
def C215_statement : Prop :=
  ∀ (disk : Disk) (v : Bool) (n : Nat) (f : Str) (out : List (VMsg Str)) (s : Stop),
    deckCardsD v disk n f = (out, .error s) →
      (∀ t, s = .exit t → ∃ g, disk g = none ∧ MissingText g t) ∧ s ≠ .denied ∧ s ≠ .decode

/-- A disk with a directory `d`. -/
def dirDisk : Disk := fun f => if f = py "d" then some .dir else none

/-- A disk with a file `d` that is no text: its byte is é in Latin-1. -/
def latinDisk : Disk := fun f => if f = py "d" then some (.file [0xE9]) else none

theorem missingText_inj {g g' t : Str} (h : MissingText g t) (h' : MissingText g' t) : g = g' := by
  rcases h with rfl | rfl <;> rcases h' with h' | h'
  · simpa using h'
  · have := congrArg List.head? h'
    simp at this
  · have := congrArg List.head? h'
    simp at this
  · simpa using h'

/-- C215: a tool says of a directory that it does not exist. -/
theorem C215_directory_refuted :
    deckCardsD (α := Str) false dirDisk 1 (py "d") =
      ([], .error (.exit (py "ERROR: File \"d\" does not exist!"))) ∧
    dirDisk (py "d") = some .dir := by
  decide +kernel

/-- C215: a file that is no text ends a tool with UnicodeDecodeError. -/
theorem C215_latin_refuted :
    deckCardsD (α := Str) false latinDisk 1 (py "d") = ([], .error .decode) := by
  decide +kernel

theorem C215_refuted : ¬ C215_statement := fun h =>
  (h latinDisk false 1 (py "d") [] .decode C215_latin_refuted).2.2 rfl

/-- C215: not even if all files are texts. -/
theorem C215_texts_refuted : ¬ ∀ (disk : Disk), (∀ g s, ¬ Unreadable disk g s) →
    ∀ (v : Bool) (n : Nat) (f t : Str) (out : List (VMsg Str)),
      deckCardsD v disk n f = (out, .error (.exit t)) → ∃ g, disk g = none ∧ MissingText g t := by
  intro h
  have hn : ∀ g s, ¬ Unreadable dirDisk g s := by
    intro g s hu
    have : dirDisk g = none ∨ dirDisk g = some .dir := by
      unfold dirDisk
      split <;> simp
    cases hu with
    | denied h => rw [h] at this; rcases this with h | h <;> cases h
    | decode h _ => rw [h] at this; rcases this with h | h <;> cases h
  obtain ⟨g, hg, ht⟩ := h dirDisk hn false 1 (py "d") _ _ C215_directory_refuted.1
  have := missingText_inj ht (.inl (by decide) : MissingText (py "d") _)
  rw [this, C215_directory_refuted.2] at hg
  cases hg

theorem deckCardsD_readError {α : Type} {disk : Disk} {v : Bool} {n : Nat} {f : Str}
    {out : List (VMsg α)} {s : Stop} (hf : f ≠ []) (h : readSourceD v disk n f = (out, .error s)) :
    deckCardsD v disk n f = (out, .error s) := by
  obtain ⟨c, cs, rfl⟩ := List.exists_cons_of_ne_nil hf
  rw [deckCardsD, h]

theorem deckCardsD_error {α : Type} {disk : Disk} {v : Bool} {n : Nat} {f : Str}
    {out : List (VMsg α)} {s : Stop} (hs : ∀ e, s ≠ .raised e)
    (h : deckCardsD v disk n f = (out, .error s)) :
    f ≠ [] ∧ readSourceD v disk n f = (out, .error s) := by
  cases f with
  | nil =>
    rw [deckCardsD] at h
    cases h
    exact absurd rfl (hs _)
  | cons c cs =>
    refine ⟨by simp, ?_⟩
    rw [deckCardsD] at h
    generalize readSourceD v disk n (c :: cs) = x at h
    rcases x with ⟨o, e | cards⟩
    · dsimp only at h
      cases h
      rfl
    · dsimp only at h
      split at h
      · cases h
      · cases h
        exact absurd rfl (hs _)

/-- C215: exactly: what is said of a file names the first file met in reading that is not a file with a
text (C179), and that one does not exist or is a directory; if it may not be opened or is no text, the
tool ends with PermissionError or UnicodeDecodeError. -/
theorem C215_read_partial {α : Type} (disk : Disk) (chars : FileSystem) (hs : Stored disk chars) (v : Bool)
    (f : Str) :
    (∀ n (out : List (VMsg α)) t, deckCardsD v disk n f = (out, .error (.exit t)) →
      SaysMissing (textFiles chars) f t ∧
      ∃ g, (disk g = none ∨ disk g = some .dir) ∧ MissingText g t) ∧
    (∀ n (out : List (VMsg α)) s, s = .denied ∨ s = .decode → deckCardsD v disk n f = (out, .error s) →
      ∃ g t, SaysMissing (textFiles chars) f t ∧ MissingText g t ∧ Unreadable disk g s) ∧
    (∀ n (out : List (VMsg α)), deckCardsD v disk n f ≠ (out, .error .isDir)) ∧
    ∀ t g, f ≠ [] → SaysMissing (textFiles chars) f t → MissingText g t →
      ∃ n0, ∀ n, n0 ≤ n →
        (disk g = none ∨ disk g = some .dir →
          (deckCardsD (α := α) v disk n f).2 = .error (.exit t)) ∧
        ∀ s, Unreadable disk g s → (deckCardsD (α := α) v disk n f).2 = .error s := by
  obtain rfl := stored_iff.1 hs
  refine ⟨fun n out t h => ?_, fun n out s hd h => ?_, fun n out h => ?_, fun t g hf h ht => ?_⟩
  · have h := (deckCardsD_error (by simp) h).2
    have hr := readSourceD_rel (α := α) (disk := disk) (v := v) (q := true) n n (Nat.le_refl n)
      (by simp) f
    generalize hz : Deck.readSourceExit (textFiles (charsOf disk)) argusClass DEFAULT_WIDTH DEFAULT_FIELDS n
      f = z at hr
    rw [h] at hr
    generalize Deck.readSourceV (α := α) v (textFiles (charsOf disk)) argusClass DEFAULT_WIDTH
      DEFAULT_FIELDS n true f = y at hr
    cases hr with
    | exit _ h1 h2 => exact ⟨readSourceExit_sound total_argus hz, _, isFile_false.1 h1, h2⟩
    | cut _ h1 _ => cases h1
    | lost _ _ h => cases h
  · have h := (deckCardsD_error (by rintro e rfl; rcases hd with hd | hd <;> cases hd) h).2
    have hr := readSourceD_rel (α := α) (disk := disk) (v := v) (q := true) n n (Nat.le_refl n)
      (by simp) f
    generalize hz : Deck.readSourceExit (textFiles (charsOf disk)) argusClass DEFAULT_WIDTH DEFAULT_FIELDS n
      f = z at hr
    rw [h] at hr
    generalize Deck.readSourceV (α := α) v (textFiles (charsOf disk)) argusClass DEFAULT_WIDTH
      DEFAULT_FIELDS n true f = y at hr
    cases hr with
    | raised => rcases hd with hd | hd <;> cases hd
    | exit => rcases hd with hd | hd <;> cases hd
    | cut _ h1 h2 => exact ⟨_, _, readSourceExit_sound total_argus hz, h2, h1⟩
    | deep => rcases hd with hd | hd <;> cases hd
    | lost _ _ h => cases h
  · have h := (deckCardsD_error (by simp) h).2
    have hr := readSourceD_rel (α := α) (disk := disk) (v := v) (q := true) n n (Nat.le_refl n)
      (by simp) f
    rw [h] at hr
    generalize Deck.readSourceExit (textFiles (charsOf disk)) argusClass DEFAULT_WIDTH DEFAULT_FIELDS n
      f = z at hr
    generalize Deck.readSourceV (α := α) v (textFiles (charsOf disk)) argusClass DEFAULT_WIDTH
      DEFAULT_FIELDS n true f = y at hr
    cases hr with
    | cut _ h1 _ => cases h1
    | lost _ _ h => cases h
  · obtain ⟨m, hm⟩ := readSourceExit_complete total_argus h
    refine ⟨m + 1, fun n hn => ?_⟩
    have hr := readSourceD_rel (α := α) (disk := disk) (v := v) (q := false) m n (by omega)
      (by simp; omega) f
    rw [hm m (Nat.le_refl m)] at hr
    generalize hx : readSourceD (α := α) v disk n f = x at hr
    generalize Deck.readSourceV (α := α) v (textFiles (charsOf disk)) argusClass DEFAULT_WIDTH
      DEFAULT_FIELDS m true f = y at hr
    cases hr with
    | exit _ h1 h2 =>
      obtain rfl := missingText_inj ht h2
      rw [deckCardsD_readError hf hx]
      refine ⟨fun _ => rfl, fun s hu => ?_⟩
      rw [unreadable_file hu] at h1
      cases h1
    | cut _ h1 h2 =>
      obtain rfl := missingText_inj ht h2
      rw [deckCardsD_readError hf hx]
      refine ⟨fun hg => ?_, fun s hu => ?_⟩
      · have := isFile_false.2 hg
        rw [unreadable_file h1] at this
        cases this
      · cases h1 with
        | denied h1 => cases hu with
          | denied => rfl
          | decode h2 => rw [h1] at h2; cases h2
        | decode h1 => cases hu with
          | denied h2 => rw [h1] at h2; cases h2
          | decode => rfl
    | deep _ _ _ h => cases h

/-- A disk with a file `a` that includes `b` after a card, and `b`, which is a directory, a file that may
not be opened, or a file that is no text. -/
def brokenDisk (b : Option Node) : Disk := fun f =>
  if f = py "a" then some (.file (utf8Encode (py "P 1\n# c\n$b\n")))
  else if f = py "b" then b else none

/-- C215 is not vacuous: the four ends of reading `a`, with what is printed before. -/
example :
    deckCardsD (α := Str) true (brokenDisk none) 5 (py "a") =
      ([.reading (py "a"), .meta_ (py "a") 2], .error (.exit (py "File \"b\" does not exist"))) ∧
    deckCardsD (α := Str) true (brokenDisk (some .dir)) 5 (py "a") =
      ([.reading (py "a"), .meta_ (py "a") 2], .error (.exit (py "File \"b\" does not exist"))) ∧
    deckCardsD (α := Str) true (brokenDisk (some .locked)) 5 (py "a") =
      ([.reading (py "a"), .meta_ (py "a") 2], .error .denied) ∧
    deckCardsD (α := Str) true (brokenDisk (some (.file [0x41, 0xC3, 0x28]))) 5 (py "a") =
      ([.reading (py "a"), .meta_ (py "a") 2, .reading (py "b")], .error .decode) := by
  refine ⟨?_, ?_, ?_, ?_⟩ <;> decide +kernel

/-! ### C216: the tools on bytes -/

/-- C216: the bytes of a file are read as a text exactly if they are the text in UTF-8. -/
theorem C216_bytes (bytes : List UInt8) (s : Str) : utf8Decode bytes = some s ↔ bytes = encoded s :=
  utf8Decode_iff

/-- A text with characters of one to four bytes. -/
example : encoded (py "Aé€𝄞") = [0x41, 0xC3, 0xA9, 0xE2, 0x82, 0xAC, 0xF0, 0x9D, 0x84, 0x9E] ∧
    utf8Decode [0x41, 0xC3, 0xA9, 0xE2, 0x82, 0xAC, 0xF0, 0x9D, 0x84, 0x9E] = some (py "Aé€𝄞") ∧
    utf8Decode [0xC0, 0x80] = none ∧ utf8Decode [0xED, 0xA0, 0x80] = none ∧
    utf8Decode [0xF4, 0x90, 0x80, 0x80] = none := by
  decide +kernel

/-- C216: reading a deck. -/
theorem C216_deck {α : Type} (disk : Disk) (chars : FileSystem) (hs : Stored disk chars) (v : Bool)
    (n : Nat) (f : Str) :
    SameRun disk v (deckCardsD (α := α) v disk n f) (deckCardsV v (textFiles chars) n f) := by
  obtain rfl := stored_iff.1 hs
  exact deckCardsD_same n f

/-- C216: check-instructions. -/
theorem C216_check (disk : Disk) (chars : FileSystem) (hs : Stored disk chars) (v : Bool)
    (n : Nat) (opts : CheckOpts) (args : List Str) :
    SameRun disk v (checkInstructionsD v disk n opts args)
      (checkInstructionsV v (textFiles chars) n opts args) := by
  obtain rfl := stored_iff.1 hs
  exact checkInstructionsD_same n opts args

/-- C216: list-instructions. -/
theorem C216_list (disk : Disk) (chars : FileSystem) (hs : Stored disk chars) (v : Bool)
    (n : Nat) (details : Bool) (args : List Str) :
    SameRun disk v (listInstructionsD v disk n details args)
      (listInstructionsV v (textFiles chars) n details args) := by
  obtain rfl := stored_iff.1 hs
  exact listInstructionsD_same n details args

/-- C216: the symbol tools. -/
theorem C216_symbols (disk : Disk) (chars : FileSystem) (hs : Stored disk chars) (v : Bool)
    (upper : Str → Str) (extract : Str → List Str → Nat → List Str) (n : Nat) (args : List Str) :
    (∀ complex, SameRun disk v (checkSymbolsD v upper extract disk n complex args)
      (checkSymbolsV v upper extract (textFiles chars) n complex args)) ∧
    (∀ begin end_ fuzzy exact,
      SameRun disk v (findSymbolsD v upper extract disk n begin end_ fuzzy exact args)
        (findSymbolsV v upper extract (textFiles chars) n begin end_ fuzzy exact args)) ∧
    SameRun disk v (listSymbolsD v upper disk n args) (listSymbolsV v upper (textFiles chars) n args) := by
  obtain rfl := stored_iff.1 hs
  exact ⟨fun _ => checkSymbolsD_same _ _ _ _ _, fun _ _ _ _ => findSymbolsD_same _ _ _ _ _ _ _ _,
    listSymbolsD_same _ _ _⟩

/-- C216: parse. -/
theorem C216_parse (disk : Disk) (chars : FileSystem) (hs : Stored disk chars) (v : Bool)
    (upper : Str → Str) (n : Nat) (debug : Bool) (args : List Str) :
    SameRun disk v (parseD v upper disk n debug args) (parseV v upper (textFiles chars) n debug args) := by
  obtain rfl := stored_iff.1 hs
  exact parseD_same upper n debug args

/-- C216: if all files are texts, the runs on the disk and on the texts print the same and end in the same
way. -/
theorem C216_texts {α β : Type} (disk : Disk) (v : Bool) (h : ∀ g s, ¬ Unreadable disk g s)
    (x : List (VMsg α) × Except Stop β) (y : List (VMsg α) × Py β) (hr : SameRun disk v x y) :
    x.1 = y.1 ∧ (∀ b, x.2 = .ok b ↔ y.2 = .ok b) ∧
    (∀ e, e ≠ .systemExit → (x.2 = .error (.raised e) ↔ y.2 = .error e)) ∧
    (y.2 = .error .systemExit ↔ x.2 = .error (.raised .systemExit) ∨ ∃ t, x.2 = .error (.exit t)) := by
  cases hr with
  | ends => simp
  | raises => simp
  | missing => simp; exact fun e h1 h2 => h1 h2.symm
  | denied _ hu => exact absurd hu (h _ _)
  | decode _ hu => exact absurd hu (h _ _)
  | deep _ hu => exact absurd hu (h _ _)

/-- C216: every disk has its texts. -/
theorem C216_stored (disk : Disk) :
    (∃ chars, Stored disk chars) ∧ ∀ chars chars', Stored disk chars → Stored disk chars' → chars = chars' :=
  ⟨⟨_, stored_iff.2 rfl⟩, fun _ _ h h' => (stored_iff.1 h).trans (stored_iff.1 h').symm⟩

/-- A disk with a deck `a.x`: an é is stored in two bytes, and the ends of lines in two. -/
def twoDisk : Disk := fun f =>
  if f = py "a.x" then some (.file (utf8Encode (py "# é\r\nL      1 Sé\r\n                   XYZ\r\n")))
  else none

/-- C216 is not vacuous: a run on bytes, and the run on the texts. -/
example :
    (checkInstructionsD true twoDisk 5 ⟨false, false, false, false, false, false⟩ [py "a.x"]).1.length = 4 ∧
    (checkInstructionsD true twoDisk 5 ⟨false, false, false, false, false, false⟩ [py "a.x"]).1 =
      (checkInstructionsV true
        (fun f => if f = py "a.x" then some (py "# é\nL      1 Sé\n                   XYZ\n") else none) 5
        ⟨false, false, false, false, false, false⟩ [py "a.x"]).1 := by
  constructor <;> decide +kernel

/-- C216: listing, if the listings can be written: the files are left as they are on the texts, and it
ends in the same way. -/
theorem C216_listing (disk : Disk) (chars : FileSystem) (hs : Stored disk chars) (n : Nat) (args : List Str)
    (hw : ∀ f ∈ args, disk (listfileOf f) ≠ some .dir ∧ disk (listfileOf f) ≠ some .locked) :
    Stored (listingD disk n args).1 (listingDisk chars n args).1 ∧
    SameRun (listingD disk n args).1 false (([] : List (VMsg Empty)), (listingD disk n args).2)
      ([], (listingDisk chars n args).2) := by
  unfold listingD listingDisk
  split
  · exact ⟨hs, .raises _ _⟩
  · exact listingFilesD_same n args disk chars hs hw

/-- C216: if a listing cannot be written, listing ends there, after the listings before. -/
theorem C216_blocked (disk d : Disk) (n : Nat) (pre post : List Str) (f : Str) (cards : List CodeCard)
    (h1 : listingFilesD n disk pre = (d, .ok ())) (h2 : (deckCardsD (α := Empty) false d n f).2 = .ok cards) :
    (disk (listfileOf f) = some .dir → listingD disk n (pre ++ f :: post) = (d, .error .isDir)) ∧
    (disk (listfileOf f) = some .locked → listingD disk n (pre ++ f :: post) = (d, .error .denied)) := by
  have key : listingD disk n (pre ++ f :: post) =
      match writeD d (listfileOf f) (cards.flatMap deckLine) with
      | (disk', .error e) => (disk', .error e)
      | (disk', .ok _) => listingFilesD n disk' post := by
    unfold listingD
    rw [if_neg (by simp), listingFilesD_append, h1]
    dsimp only
    rw [listingFilesD]
    generalize deckCardsD (α := Empty) false d n f = x at h2
    rcases x with ⟨o, r⟩
    cases h2
    rfl
  have hk : ∀ g, disk g = some .dir ∨ disk g = some .locked → d g = disk g := by
    intro g hg
    have := listingFilesD_keeps n pre disk hg
    rwa [h1] at this
  refine ⟨fun h => ?_, fun h => ?_⟩
  · rw [key, writeD, hk _ (.inl h), h]
  · rw [key, writeD, hk _ (.inr h), h]

/-- C216: genpages: a directory, a file that may not be opened and a file that is no text end it, and
nothing is written; otherwise it does as on the texts. -/
theorem C216_genpages (disk : Disk) (chars : FileSystem) (hs : Stored disk chars) (n : Nat)
    (f : Str) (rest : List Str) :
    (disk f = some .dir → genpagesD disk n (f :: rest) = (disk, .error .isDir)) ∧
    (∀ s, Unreadable disk f s → genpagesD disk n (f :: rest) = (disk, .error s)) ∧
    (disk f ≠ some .dir → (∀ s, ¬ Unreadable disk f s) →
      Stored (genpagesD disk n (f :: rest)).1 (genpagesDisk chars n (f :: rest)).1 ∧
      ((genpagesD disk n (f :: rest)).2 = .ok () ↔ (genpagesDisk chars n (f :: rest)).2 = .ok ()) ∧
      ∀ e, (genpagesD disk n (f :: rest)).2 = .error (.raised e) ↔
        (genpagesDisk chars n (f :: rest)).2 = .error e) := by
  obtain ⟨h1, h2, h3⟩ := genpagesD_same disk chars hs n f rest
  refine ⟨h1, h2, fun h4 h5 => ?_⟩
  obtain ⟨h6, h7⟩ := h3 h4 h5
  refine ⟨h6, ?_⟩
  rw [h7]
  cases (genpagesDisk chars n (f :: rest)).2 with
  | ok _ => simp
  | error e => simp

/-- The listing of the deck; it cannot be written if there is a directory of its name. -/
example :
    (listingD twoDisk 5 [py "a.x"]).2 = .ok () ∧
    ((listingD twoDisk 5 [py "a.x"]).1 (py "a.lst")).isSome = true ∧
    (listingD (fun f => if f = py "a.lst" then some .dir else twoDisk f) 5 [py "a.x"]).2 = .error .isDir ∧
    (listingD (fun f => if f = py "a.lst" then some .locked else twoDisk f) 5 [py "a.x"]).2 =
      .error .denied := by
  refine ⟨?_, ?_, ?_, ?_⟩ <;> decide +kernel

/-- genpages on a directory and on a text. -/
example :
    (genpagesD dirDisk 5 [py "d"]).2 = .error .isDir ∧
    (genpagesD latinDisk 5 [py "d"]).2 = .error .decode ∧
    (genpagesD twoDisk 5 [py "b"]).2 = .error (.raised .systemExit) ∧
    (genpagesD twoDisk 5 [py "a.x"]).2 = .error (.raised .unboundLocal) := by
  refine ⟨?_, ?_, ?_, ?_⟩ <;> decide +kernel

end H800
