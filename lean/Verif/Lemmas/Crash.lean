import Verif.Spec.Crash
import Verif.Lemmas.Disk
import Verif.Props.ListingTool

/-! Lemmas for C223 to C225. -/

namespace H800

open Spec

/-- The disk with a file of these bytes. -/
def putFile (disk : Disk) (name : Str) (bytes : List UInt8) : Disk :=
  fun f => if f = name then some (.file bytes) else disk f

theorem putFile_self (disk : Disk) (name : Str) (bytes : List UInt8) :
    putFile disk name bytes name = some (.file bytes) := if_pos rfl

theorem putFile_ne {disk : Disk} {name f : Str} {bytes : List UInt8} (h : f ≠ name) :
    putFile disk name bytes f = disk f := if_neg h

theorem putFile_putFile (disk : Disk) (name : Str) (a b : List UInt8) :
    putFile (putFile disk name a) name b = putFile disk name b := by
  funext f
  unfold putFile
  split <;> rfl

theorem putFile_same {disk : Disk} {name : Str} {bytes : List UInt8}
    (h : disk name = some (.file bytes)) : putFile disk name bytes = disk := by
  funext f
  unfold putFile
  split
  · rename_i e; rw [e, h]
  · rfl

theorem appends_run {disk : Disk} {name : Str} {old : List UInt8} (bs : List UInt8)
    (h : disk name = some (.file old)) :
    (bs.map (Effect.append name)).foldl Effect.run disk = putFile disk name (old ++ bs) := by
  induction bs generalizing disk old with
  | nil => rw [List.append_nil, putFile_same h]; rfl
  | cons b bs ih =>
    rw [List.map_cons, List.foldl_cons]
    have h1 : Effect.run disk (.append name b) = putFile disk name (old ++ [b]) := by
      funext f
      simp only [Effect.run, putFile]
      split
      · rename_i e; rw [e, h]
      · rfl
    rw [h1, ih (putFile_self _ _ _), putFile_putFile, List.append_assoc, List.singleton_append]

/-- Beginnings of a list of appended bytes. -/
theorem appends_prefix {name : Str} {bs : List UInt8} {done rest : List Effect}
    (h : bs.map (Effect.append name) = done ++ rest) :
    ∃ a b, bs = a ++ b ∧ done = a.map (Effect.append name) := by
  obtain ⟨a, b, h1, h2, -⟩ := List.map_eq_append_iff.1 h
  exact ⟨a, b, h1, h2.symm⟩

/-- Can the file be written? -/
def Writable (disk : Disk) (name : Str) : Prop := disk name ≠ some .dir ∧ disk name ≠ some .locked

theorem write_ok {disk : Disk} {name : Str} (h : Writable disk name) (text : Str) :
    writeE disk name text =
      (.truncate name :: (encoded text).map (.append name), .ok ()) ∧
    writeD disk name text = (putFile disk name (encoded text), .ok ()) := by
  unfold writeE writeD
  rw [utf8Encode_encoded]
  cases hd : disk name with
  | none => exact ⟨rfl, rfl⟩
  | some node =>
    cases node with
    | file bytes => exact ⟨rfl, rfl⟩
    | locked => exact absurd hd h.2
    | dir => exact absurd hd h.1

theorem write_error {disk : Disk} {name : Str} (h : ¬ Writable disk name) (text : Str) :
    ∃ e, writeE disk name text = ([], .error e) ∧ writeD disk name text = (disk, .error e) := by
  unfold writeE writeD
  cases hd : disk name with
  | none => exact absurd ⟨by rw [hd]; simp, by rw [hd]; simp⟩ h
  | some node =>
    cases node with
    | file bytes => exact absurd ⟨by rw [hd]; simp, by rw [hd]; simp⟩ h
    | locked => exact ⟨_, rfl, rfl⟩
    | dir => exact ⟨_, rfl, rfl⟩

theorem truncate_run (disk : Disk) (name : Str) (bs : List UInt8) :
    (Effect.truncate name :: bs.map (.append name)).foldl Effect.run disk = putFile disk name bs := by
  rw [List.foldl_cons]
  have h : Effect.run disk (.truncate name) = putFile disk name [] := rfl
  rw [h, appends_run bs (putFile_self _ _ _), putFile_putFile, List.nil_append]

/-- One file of a run of listing. -/
inductive ListStep (n : Nat) (disk : Disk) (f : Str) : Prop
  | fails (e : Stop) : (∀ rest, listingFilesE n disk (f :: rest) = ([], .error e)) →
      (∀ rest, listingFilesD n disk (f :: rest) = (disk, .error e)) → ListStep n disk f
  | writes (bytes : List UInt8) (cards : List CodeCard) : Writable disk (listfileOf f) →
      (deckCardsD (α := Empty) false disk n f).2 = .ok cards → bytes = encoded (cards.flatMap deckLine) →
      (∀ rest, listingFilesE n disk (f :: rest) =
        ((.truncate (listfileOf f) :: bytes.map (.append (listfileOf f))) ++
          (listingFilesE n (putFile disk (listfileOf f) bytes) rest).1,
          (listingFilesE n (putFile disk (listfileOf f) bytes) rest).2)) →
      (∀ rest, listingFilesD n disk (f :: rest) =
        listingFilesD n (putFile disk (listfileOf f) bytes) rest) → ListStep n disk f

theorem list_step (n : Nat) (disk : Disk) (f : Str) : ListStep n disk f := by
  rcases hd : deckCardsD (α := Empty) false disk n f with ⟨out, e | cards⟩
  · exact .fails e (fun rest => by rw [listingFilesE, hd]) (fun rest => by rw [listingFilesD, hd])
  · by_cases hw : Writable disk (listfileOf f)
    · obtain ⟨h1, h2⟩ := write_ok hw (cards.flatMap deckLine)
      refine .writes (encoded (cards.flatMap deckLine)) cards hw (by rw [hd]) rfl (fun rest => ?_)
        (fun rest => ?_)
      · rw [listingFilesE, hd]
        simp only [h1, truncate_run]
      · rw [listingFilesD, hd]
        simp only [h2]
    · obtain ⟨e, h1, h2⟩ := write_error hw (cards.flatMap deckLine)
      exact .fails e (fun rest => by rw [listingFilesE, hd]; simp only [h1])
        (fun rest => by rw [listingFilesD, hd]; simp only [h2])

theorem listing_effects (n : Nat) (args : List Str) (disk : Disk) :
    listingFilesD n disk args =
      ((listingFilesE n disk args).1.foldl Effect.run disk, (listingFilesE n disk args).2) := by
  induction args generalizing disk with
  | nil => rfl
  | cons f args ih =>
    rcases list_step n disk f with ⟨e, h1, h2⟩ | ⟨bytes, cards, hw, hc, hb, h1, h2⟩
    · rw [h1, h2]; rfl
    · rw [h1, h2, ih]
      simp only
      rw [List.foldl_append, truncate_run]

/-- The states in which a run of listing can be stopped. -/
theorem listing_stopped (n : Nat) (args : List Str) (disk d : Disk)
    (h : Stopped (listingFilesE n disk args).1 disk d) :
    d = (listingFilesD n disk args).1 ∨
    ∃ pre f post d0 bytes more, args = pre ++ f :: post ∧
      listingFilesD n disk pre = (d0, .ok ()) ∧
      listingFilesD n disk (pre ++ [f]) = (putFile d0 (listfileOf f) (bytes ++ more), .ok ()) ∧
      (d = d0 ∨ d = putFile d0 (listfileOf f) bytes) := by
  induction args generalizing disk d with
  | nil =>
    obtain ⟨done, rest, h1, rfl⟩ := h
    have : done = [] := (List.append_eq_nil_iff.1 h1.symm).1
    subst this
    exact Or.inl rfl
  | cons f args ih =>
    obtain ⟨done, rest, h0, rfl⟩ := h
    rcases list_step n disk f with ⟨e, h1, h2⟩ | ⟨bytes, cards, hw, hc, hb, h1, h2⟩
    · rw [h1] at h0
      have : done = [] := (List.append_eq_nil_iff.1 h0.symm).1
      subst this
      rw [h2]
      exact Or.inl rfl
    · rw [h1] at h0
      simp only at h0
      rcases List.append_eq_append_iff.1 h0 with ⟨t, ht, hr⟩ | ⟨t, ht, hr⟩
      · -- in a later file
        subst ht
        rw [List.foldl_append, truncate_run]
        rcases ih (putFile disk (listfileOf f) bytes) _ ⟨t, rest, hr, rfl⟩ with h | h
        · left
          rw [h, h2]
        · right
          obtain ⟨pre, g, post, d0, bs, more, h3, h4, h5, h6⟩ := h
          refine ⟨f :: pre, g, post, d0, bs, more, by rw [h3]; rfl, ?_, ?_, h6⟩
          · rw [h2, h4]
          · rw [List.cons_append, h2, h5]
      · right
        refine ⟨[], f, args, disk, ?_⟩
        have h3 : listingFilesD n disk [f] = (putFile disk (listfileOf f) bytes, .ok ()) := by
          rw [h2]; rfl
        cases done with
        | nil => exact ⟨[], bytes, rfl, rfl, h3, Or.inl rfl⟩
        | cons x done =>
          rw [List.cons_append] at ht
          injection ht with hx ht
          obtain ⟨a, b, rfl, rfl⟩ := appends_prefix ht
          rw [← hx, truncate_run]
          exact ⟨a, b, rfl, rfl, h3, Or.inr rfl⟩

/-! ### Reading -/

/-- The same nodes on a set of files. -/
def AgreeOn (S : Str → Prop) (d disk : Disk) : Prop := ∀ f, S f → d f = disk f

theorem readLoopD_congr {α : Type} {v : Bool} {d disk : Disk} {S : Str → Prop} (h : AgreeOn S d disk)
    {read read' : Str → List (VMsg α) × Except Stop (List PunchCard)}
    (hr : ∀ f, S f → read f = read' f) (file : Str) (ls : List Str) (i : Nat)
    (hls : ∀ l ∈ ls, startsWith l '$' = true → ∀ g, firstWord (l.drop 1) = .ok g → S g) :
    readLoopD v d read file i ls = readLoopD v disk read' file i ls := by
  induction ls generalizing i with
  | nil => rfl
  | cons l ls ih =>
    have ih := fun j => ih j (fun l hl => hls l (List.mem_cons_of_mem _ hl))
    rw [readLoopD, readLoopD]
    by_cases h1 : startsWith l '#' = true
    · rw [if_pos h1, if_pos h1, ih]
    · rw [if_neg h1, if_neg h1]
      by_cases h2 : startsWith l '$' = true
      · rw [if_pos h2, if_pos h2]
        cases hw : firstWord (l.drop 1) with
        | error e => rfl
        | ok g =>
          have hg := hls l List.mem_cons_self h2 g hw
          have hi : isFile d g = isFile disk g := by
            unfold isFile
            rw [h g hg]
          simp only [hi, hr g hg, ih]
      · rw [if_neg h2, if_neg h2]
        simp only [ih]

theorem readSourceD_congr {α : Type} {v : Bool} {d disk : Disk} {S : Str → Prop} (h : AgreeOn S d disk)
    (hS : ∀ f g, S f → Includes (textFiles (charsOf disk)) f g → S g) (n : Nat) (f : Str) (hf : S f) :
    readSourceD (α := α) v d n f = readSourceD v disk n f := by
  induction n generalizing f with
  | zero => rfl
  | succ n ih =>
    have hi : isFile d f = isFile disk f := by
      unfold isFile
      rw [h f hf]
    rw [readSourceD, readSourceD, hi, h f hf]
    cases hd : disk f with
    | none => rfl
    | some node =>
      cases node with
      | locked => rfl
      | dir => rfl
      | file bytes =>
        dsimp only
        cases hu : utf8Decode bytes with
        | none => rfl
        | some s =>
          dsimp only
          rw [readLoopD_congr h ih f _ 0]
          intro l hl h2 g hg
          refine hS f g hf ⟨universal s, ?_, l.drop 1, ?_, firstWord_ok.1 hg⟩
          · unfold textFiles charsOf
            rw [hd]
            simp [hu]
          · obtain ⟨t, rfl⟩ : ∃ t, l = '$' :: t := by
              cases l with
              | nil => simp [startsWith] at h2
              | cons c t =>
                have : c = '$' := by simpa [startsWith] using h2
                exact ⟨t, by rw [this]⟩
            exact hl

theorem deckCardsD_congr {α : Type} {v : Bool} {d disk : Disk} {S : Str → Prop} (h : AgreeOn S d disk)
    (hS : ∀ f g, S f → Includes (textFiles (charsOf disk)) f g → S g) (n : Nat) (f : Str) (hf : S f) :
    deckCardsD (α := α) v d n f = deckCardsD v disk n f := by
  cases f with
  | nil => rfl
  | cons c cs => rw [deckCardsD, deckCardsD, readSourceD_congr h hS n _ hf]

end H800
