import Verif.Lemmas.Crash

/-!
Properties C223 and C224: runs of listing and genpages that are stopped.
-/

namespace H800

open Spec

/-! ### C223 -/

/-- C223: a run that is not stopped does what the other theorems about these tools say. -/
theorem C223_finished (disk : Disk) (n : Nat) (args : List Str) :
    listingD disk n args =
      ((listingE disk n args).1.foldl Effect.run disk, (listingE disk n args).2) ∧
    genpagesD disk n args =
      ((genpagesE disk n args).1.foldl Effect.run disk, (genpagesE disk n args).2) := by
  constructor
  · unfold listingD listingE
    split
    · rfl
    · exact listing_effects n args disk
  · cases args with
    | nil => rfl
    | cons f args =>
      unfold genpagesD genpagesE
      dsimp only
      cases hd : disk f with
      | none => rfl
      | some node =>
        cases node with
        | locked => rfl
        | dir => rfl
        | file bytes =>
          dsimp only
          cases utf8Decode bytes with
          | none => rfl
          | some chars =>
            dsimp only
            cases pagesInfo (fun _ => none) n (readlines (universal chars)) with
            | error e => rfl
            | ok st =>
              dsimp only
              cases st.section_ with
              | none => rfl
              | some sec =>
                dsimp only
                cases st.pages with
                | none => rfl
                | some p =>
                  dsimp only
                  split
                  · rfl
                  · dsimp only
                    rw [appends_run _ hd]
                    rfl

/-- C223: listing, stopped at any moment: it had got to its end, or it had listed the files `pre` and was
about to list or listing the next file `f`: then all files are as after listing `pre`, and the listing of
`f`, if it was begun, is a beginning of what it would be in the end. -/
theorem C223_listing (disk d : Disk) (n : Nat) (args : List Str)
    (h : Stopped (listingE disk n args).1 disk d) :
    d = (listingD disk n args).1 ∨
    ∃ pre f post d0 d1 name bytes more, args = pre ++ f :: post ∧
      listingFilesD n disk pre = (d0, .ok ()) ∧ listingFilesD n disk (pre ++ [f]) = (d1, .ok ()) ∧
      ListingName f name ∧ d1 name = some (.file (bytes ++ more)) ∧
      (d = d0 ∨ (d name = some (.file bytes) ∧ ∀ g, g ≠ name → d g = d0 g)) := by
  unfold listingE at h
  unfold listingD
  split at h
  · rename_i hl
    rw [if_pos hl]
    obtain ⟨done, rest, h1, rfl⟩ := h
    have : done = [] := (List.append_eq_nil_iff.1 h1.symm).1
    subst this
    exact Or.inl rfl
  · rename_i hl
    rw [if_neg hl]
    rcases listing_stopped n args disk d h with h | ⟨pre, f, post, d0, bytes, more, h1, h2, h3, h4⟩
    · exact Or.inl h
    · refine Or.inr ⟨pre, f, post, d0, _, listfileOf f, bytes, more, h1, h2, h3, listfileOf_spec f,
        putFile_self _ _ _, ?_⟩
      rcases h4 with h4 | h4
      · exact Or.inl h4
      · right
        rw [h4]
        exact ⟨putFile_self _ _ _, fun g hg => putFile_ne hg⟩

theorem listing_touched (n : Nat) (args : List Str) (disk : Disk) (g : Str)
    (hg : ∀ f ∈ args, ¬ ListingName f g) : (listingFilesD n disk args).1 g = disk g := by
  induction args generalizing disk with
  | nil => rfl
  | cons f args ih =>
    rcases list_step n disk f with ⟨e, h1, h2⟩ | ⟨bytes, cards, hw, hc, hb, h1, h2⟩
    · rw [h2]
    · rw [h2, ih _ (fun f hf => hg f (List.mem_cons_of_mem _ hf)), putFile_ne]
      rintro rfl
      exact hg f List.mem_cons_self (listfileOf_spec f)

/-- C223: at any moment all files that are no listings of the files given are as they were. -/
theorem C223_sources (disk d : Disk) (n : Nat) (args : List Str)
    (h : Stopped (listingE disk n args).1 disk d) (g : Str) (hg : ∀ f ∈ args, ¬ ListingName f g) :
    d g = disk g := by
  rcases C223_listing disk d n args h with h | ⟨pre, f, post, d0, d1, name, bytes, more, h1, h2, h3, h4, h5, h6⟩
  · rw [h]
    unfold listingD
    split
    · rfl
    · exact listing_touched n args disk g hg
  · have hd0 : d0 g = disk g := by
      have := listing_touched n pre disk g (fun f hf => hg f (by rw [h1]; simp [hf]))
      rw [h2] at this
      exact this
    rcases h6 with h6 | h6
    · rw [h6, hd0]
    · rw [h6.2 g, hd0]
      rintro rfl
      exact hg f (by rw [h1]; simp) h4

/-- C223: genpages, stopped at any moment: only the file given has changed, and has a beginning of the
text to be appended after its own. -/
theorem C223_genpages (disk d : Disk) (n : Nat) (args : List Str)
    (h : Stopped (genpagesE disk n args).1 disk d) :
    d = disk ∨ ∃ file rest bytes begun more, args = file :: rest ∧ disk file = some (.file bytes) ∧
      genpagesD disk n args = (putFile disk file (bytes ++ begun ++ more), .ok ()) ∧
      d file = some (.file (bytes ++ begun)) ∧ ∀ g, g ≠ file → d g = disk g := by
  obtain ⟨done, rest, h1, rfl⟩ := h
  have hnil : ∀ e : Except Stop Unit, (genpagesE disk n args) = ([], e) →
      done.foldl Effect.run disk = disk := by
    intro e he
    rw [he] at h1
    have : done = [] := (List.append_eq_nil_iff.1 h1.symm).1
    rw [this]
    rfl
  cases args with
  | nil => exact Or.inl (hnil _ rfl)
  | cons f args =>
    unfold genpagesE at h1 hnil
    unfold genpagesD
    dsimp only at h1 hnil ⊢
    cases hd : disk f with
    | none => rw [hd] at hnil; exact Or.inl (hnil _ rfl)
    | some node =>
      rw [hd] at hnil h1
      cases node with
      | locked => exact Or.inl (hnil _ rfl)
      | dir => exact Or.inl (hnil _ rfl)
      | file bytes =>
        dsimp only at hnil h1 ⊢
        cases hu : utf8Decode bytes with
        | none => rw [hu] at hnil; exact Or.inl (hnil _ rfl)
        | some chars =>
          rw [hu] at hnil h1
          dsimp only at hnil h1 ⊢
          cases hp : pagesInfo (fun _ => none) n (readlines (universal chars)) with
          | error e => rw [hp] at hnil; exact Or.inl (hnil _ rfl)
          | ok st =>
            rw [hp] at hnil h1
            dsimp only at hnil h1 ⊢
            cases hs : st.section_ with
            | none => rw [hs] at hnil; exact Or.inl (hnil _ rfl)
            | some sec =>
              rw [hs] at hnil h1
              dsimp only at hnil h1 ⊢
              cases hq : st.pages with
              | none => rw [hq] at hnil; exact Or.inl (hnil _ rfl)
              | some p =>
                rw [hq] at hnil h1
                dsimp only at hnil h1 ⊢
                by_cases hlt : p.1 > p.2
                · rw [if_pos hlt] at hnil
                  exact Or.inl (hnil _ rfl)
                · rw [if_neg hlt] at h1 ⊢
                  obtain ⟨a, b, h2, h3⟩ := appends_prefix h1
                  refine Or.inr ⟨f, args, bytes, a, b, rfl, hd, ?_, ?_, ?_⟩
                  · rw [h2, List.append_assoc]
                    rfl
                  · rw [h3, appends_run a hd, putFile_self]
                  · intro g hg
                    rw [h3, appends_run a hd, putFile_ne hg]

/-- A deck, and its old listing. -/
def crashDisk : Disk := fun f =>
  if f = py "a.x" then some (.file (utf8Encode (py "AB\n")))
  else if f = py "a.lst" then some (.file (utf8Encode (py "old")))
  else none

/-- Stopped after the first two bytes of the new listing: of the old one nothing is left. -/
example : ∃ d, Stopped (listingE crashDisk 5 [py "a.x"]).1 crashDisk d ∧
    d (py "a.x") = crashDisk (py "a.x") ∧ d (py "a.lst") = some (.file (utf8Encode (py "a."))) :=
  ⟨_, ⟨(listingE crashDisk 5 [py "a.x"]).1.take 3, (listingE crashDisk 5 [py "a.x"]).1.drop 3,
    (List.take_append_drop 3 _).symm, rfl⟩, by decide +kernel, by decide +kernel⟩

/-! ### C224 -/

/-- C224, the property as stated: after runs of listing that were stopped, running it again gives all
files as if it had not been stopped. -/
def C224_statement : Prop := ∀ (disk d : Disk) (n : Nat) (args : List Str),
  Interrupted (fun d => (listingE d n args).1) disk d → listingD d n args = listingD disk n args

/-- C224 is false: a deck named `a.lst` is its own listing, and is lost. -/
theorem C224_refuted : ¬ C224_statement := by
  intro h
  have h1 := h crashDisk (putFile crashDisk (py "a.lst") []) 5 [py "a.lst"]
    (.again .none ⟨[.truncate (py "a.lst")], (listingE crashDisk 5 [py "a.lst"]).1.drop 1,
      by decide +kernel, rfl⟩)
  have h2 : (listingD (putFile crashDisk (py "a.lst") []) 5 [py "a.lst"]).1 (py "a.lst") ≠
      (listingD crashDisk 5 [py "a.lst"]).1 (py "a.lst") := by decide +kernel
  rw [h1] at h2
  exact h2 rfl

/-- A disk that differs from another at most in listings that will be written again. -/
theorem listing_again (n : Nat) (S : Str → Prop) (disk0 : Disk)
    (hS : ∀ f g, S f → Includes (textFiles (charsOf disk0)) f g → S g) (pre : List Str) (disk d : Disk)
    (h0 : AgreeOn S disk disk0) (hSd : AgreeOn S d disk) (hpre : ∀ f ∈ pre, S f)
    (hW : ∀ g, Writable d g ↔ Writable disk g) (hlst : ∀ f ∈ pre, ¬ S (listfileOf f))
    (hd : ∀ g, (∀ f ∈ pre, g ≠ listfileOf f) → d g = disk g)
    (hok : (listingFilesD n disk pre).2 = .ok ()) :
    listingFilesD n d pre = listingFilesD n disk pre := by
  induction pre generalizing disk d with
  | nil =>
    have : d = disk := funext fun g => hd g (by simp)
    rw [this]
  | cons f pre ih =>
    have hdeck : deckCardsD (α := Empty) false d n f = deckCardsD false disk n f := by
      rw [deckCardsD_congr (disk := disk0) (fun g hg => (hSd g hg).trans (h0 g hg)) hS n f
          (hpre f List.mem_cons_self),
        deckCardsD_congr h0 hS n f (hpre f List.mem_cons_self)]
    rcases list_step n disk f with ⟨e, h1, h2⟩ | ⟨bytes, cards, hw, hc, hb, h1, h2⟩
    · rw [h2] at hok
      cases hok
    · rcases list_step n d f with ⟨e, k1, k2⟩ | ⟨bytes', cards', kw, kc, kb, k1, k2⟩
      · exfalso
        have hw' := (hW (listfileOf f)).2 hw
        have := k2 []
        rw [listingFilesD] at this
        rw [← hdeck] at hc
        generalize deckCardsD (α := Empty) false d n f = q at this hc
        obtain ⟨out, r⟩ := q
        dsimp only at hc
        subst hc
        dsimp only at this
        rw [(write_ok hw' _).2] at this
        injection this with _ this
        cases this
      · rw [hdeck, hc] at kc
        injection kc with kc
        subst kc
        rw [← hb] at kb
        subst kb
        rw [h2, k2]
        rw [h2] at hok
        refine ih (putFile disk (listfileOf f) bytes') (putFile d (listfileOf f) bytes')
          ?_ ?_ (fun g hg => hpre g (List.mem_cons_of_mem _ hg)) ?_
          (fun g hg => hlst g (List.mem_cons_of_mem _ hg)) ?_ hok
        · intro g hg
          rw [putFile_ne]
          · exact h0 g hg
          · rintro rfl
            exact hlst f List.mem_cons_self hg
        · intro g hg
          have hne : g ≠ listfileOf f := by
            rintro rfl
            exact hlst f List.mem_cons_self hg
          rw [putFile_ne hne, putFile_ne hne]
          exact hSd g hg
        · intro g
          unfold Writable putFile
          by_cases hg : g = listfileOf f
          · simp [hg]
          · simp only [if_neg hg]
            exact hW g
        · intro g hg
          unfold putFile
          by_cases he : g = listfileOf f
          · rw [if_pos he, if_pos he]
          · rw [if_neg he, if_neg he]
            refine hd g fun f' hf' => ?_
            rcases List.mem_cons.1 hf' with rfl | hf'
            · exact he
            · exact hg f' hf'

theorem listing_append (n : Nat) (pre post : List Str) (disk d0 : Disk)
    (h : listingFilesD n disk pre = (d0, .ok ())) :
    listingFilesD n disk (pre ++ post) = listingFilesD n d0 post := by
  induction pre generalizing disk with
  | nil => cases h; rfl
  | cons f pre ih =>
    rcases list_step n disk f with ⟨e, h1, h2⟩ | ⟨bytes, cards, hw, hc, hb, h1, h2⟩
    · rw [h2] at h; cases h
    · rw [List.cons_append, h2]
      rw [h2] at h
      exact ih _ h

theorem listing_writable (n : Nat) (args : List Str) (disk : Disk) (g : Str) :
    Writable (listingFilesD n disk args).1 g ↔ Writable disk g := by
  induction args generalizing disk with
  | nil => exact Iff.rfl
  | cons f args ih =>
    rcases list_step n disk f with ⟨e, h1, h2⟩ | ⟨bytes, cards, hw, hc, hb, h1, h2⟩
    · rw [h2]
    · rw [h2, ih]
      unfold Writable putFile
      by_cases hg : g = listfileOf f
      · subst hg
        simpa [Writable] using hw
      · simp only [if_neg hg]

/-- The arguments with which listing gets to an end before it fails, and the rest. -/
theorem listing_split (n : Nat) (args : List Str) (disk : Disk) :
    ∃ pre post d0, args = pre ++ post ∧ listingFilesD n disk pre = (d0, .ok ()) ∧
      (listingFilesD n disk args).1 = d0 := by
  induction args generalizing disk with
  | nil => exact ⟨[], [], disk, rfl, rfl, rfl⟩
  | cons f args ih =>
    rcases list_step n disk f with ⟨e, h1, h2⟩ | ⟨bytes, cards, hw, hc, hb, h1, h2⟩
    · exact ⟨[], f :: args, disk, rfl, rfl, by rw [h2]⟩
    · obtain ⟨pre, post, d0, h3, h4, h5⟩ := ih (putFile disk (listfileOf f) bytes)
      exact ⟨f :: pre, post, d0, by rw [h3]; rfl, by rw [h2, h4], by rw [h2, h5]⟩

/-- What is known of a disk after runs that were stopped. -/
structure Half (n : Nat) (args : List Str) (disk d : Disk) : Prop where
  same : listingFilesD n d args = listingFilesD n disk args
  other : ∀ g, (∀ f ∈ args, g ≠ listfileOf f) → d g = disk g

theorem half_stopped (n : Nat) (args : List Str) (S : Str → Prop) (disk d : Disk)
    (hS : ∀ f g, S f → Includes (textFiles (charsOf disk)) f g → S g) (hargs : ∀ f ∈ args, S f)
    (hlst : ∀ f ∈ args, ¬ S (listfileOf f)) (h : Stopped (listingFilesE n disk args).1 disk d) :
    Half n args disk d := by
  -- the files listed, or begun, by the stopped run
  obtain ⟨pre, post, d0, hargs', hpre, hW, hd⟩ : ∃ pre post d0, args = pre ++ post ∧
      listingFilesD n disk pre = (d0, .ok ()) ∧ (∀ g, Writable d g ↔ Writable disk g) ∧
      (∀ g, (∀ f ∈ pre, g ≠ listfileOf f) → d g = disk g) := by
    have hother : ∀ (pre : List Str) (g : Str), (∀ f ∈ pre, g ≠ listfileOf f) →
        (listingFilesD n disk pre).1 g = disk g := by
      intro pre g hg
      refine listing_touched n pre disk g fun f hf hn => hg f hf ?_
      exact listingName_unique hn (listfileOf_spec f)
    rcases listing_stopped n args disk d h with h | ⟨pre, f, post, d0, bytes, more, h1, h2, h3, h4⟩
    · obtain ⟨pre, post, d0, h1, h2, h3⟩ := listing_split n args disk
      refine ⟨pre, post, d0, h1, h2, fun g => ?_, fun g hg => ?_⟩
      · rw [h, listing_writable]
      · rw [h, h3, ← hother pre g hg, h2]
    · refine ⟨pre ++ [f], post, _, by rw [h1]; simp, h3, fun g => ?_, fun g hg => ?_⟩
      · have hd0 := listing_writable n pre disk g
        have hd1 := listing_writable n (pre ++ [f]) disk g
        rw [h2] at hd0
        rw [h3] at hd1
        rcases h4 with rfl | rfl
        · exact hd0
        · refine Iff.trans ?_ hd1
          unfold Writable putFile
          by_cases hg : g = listfileOf f
          · simp [hg]
          · simp only [if_neg hg]
      · have hd0 := hother pre g (fun f' hf' => hg f' (by simp [hf']))
        rw [h2] at hd0
        rcases h4 with rfl | rfl
        · exact hd0
        · rw [putFile_ne (hg f (by simp))]
          exact hd0
  have hmem : ∀ f ∈ pre, f ∈ args := fun f hf => by rw [hargs']; simp [hf]
  have hagree : AgreeOn S d disk := fun g hg => hd g fun f hf e => hlst f (hmem f hf) (e ▸ hg)
  have hsame := listing_again n S disk hS pre disk d (fun _ _ => rfl) hagree
    (fun f hf => hargs f (hmem f hf)) hW (fun f hf => hlst f (hmem f hf)) hd (by rw [hpre])
  constructor
  · rw [hargs', listing_append n pre post disk d0 hpre,
      listing_append n pre post d d0 (hsame.trans hpre)]
  · exact fun g hg => hd g fun f hf => hg f (hmem f hf)

/-- C224, what holds: if none of the listings is among the files read, running listing again after any
number of runs that were stopped gives all files as if it had not been stopped, and ends in the same
way. -/
theorem C224_separate_partial (disk d : Disk) (n : Nat) (args : List Str) (chars : FileSystem)
    (hs : Stored disk chars)
    (hr : ∀ f ∈ args, ∀ g, ListingName f g → ¬ Reached (textFiles chars) args g)
    (h : Interrupted (fun d => (listingE d n args).1) disk d) :
    listingD d n args = listingD disk n args := by
  obtain rfl := stored_iff.1 hs
  have hlst : ∀ f ∈ args, ¬ Reached (textFiles (charsOf disk)) args (listfileOf f) :=
    fun f hf => hr f hf _ (listfileOf_spec f)
  unfold listingD
  by_cases hl : args.length < 1
  · rw [if_pos hl, if_pos hl]
    induction h with
    | none => rfl
    | again h1 h2 ih =>
      rw [← ih]
      obtain ⟨done, rest, h3, rfl⟩ := h2
      simp only [listingE, if_pos hl] at h3
      have : done = [] := (List.append_eq_nil_iff.1 h3.symm).1
      subst this
      rfl
  · rw [if_neg hl, if_neg hl]
    have key : Half n args disk d := by
      induction h with
      | none => exact ⟨rfl, fun _ _ => rfl⟩
      | @again d d' h1 h2 ih =>
        have hag : AgreeOn (Reached (textFiles (charsOf disk)) args) d disk := by
          intro g hg
          refine ih.other g fun f hf e => hlst f hf (e ▸ hg)
        have hinc : ∀ f g, Reached (textFiles (charsOf disk)) args f →
            Includes (textFiles (charsOf d)) f g → Reached (textFiles (charsOf disk)) args g := by
          rintro f g hf ⟨text, ht, l, hl', hw⟩
          refine .include_ hf ⟨text, ?_, l, hl', hw⟩
          rw [← ht]
          unfold textFiles charsOf
          rw [hag f hf]
        simp only [listingE, if_neg hl] at h2
        have := half_stopped n args _ d d' hinc (fun f hf => .given hf) hlst h2
        exact ⟨this.same.trans ih.same, fun g hg => (this.other g hg).trans (ih.other g hg)⟩
    exact key.same

/-- The hypotheses of C224 for the example of C223. -/
example : ∃ chars, Stored crashDisk chars ∧ ∀ f ∈ [py "a.x"], ∀ g, ListingName f g →
    ¬ Reached (textFiles chars) [py "a.x"] g := by
  refine ⟨_, stored_iff.2 rfl, ?_⟩
  intro f hf g hg hr
  rw [List.mem_singleton] at hf
  subst hf
  have hg' := listingName_unique hg (listfileOf_spec _)
  subst hg'
  have key : ∀ g, Reached (textFiles (charsOf crashDisk)) [py "a.x"] g → g = py "a.x" := by
    intro g hg
    induction hg with
    | given h => simpa using h
    | include_ h1 h2 ih =>
      subst ih
      obtain ⟨text, ht, l, hl, -⟩ := h2
      have : textFiles (charsOf crashDisk) (py "a.x") = some (py "AB\n") := by decide +kernel
      rw [this] at ht
      cases ht
      have : readlines (py "AB\n") = [py "AB\n"] := by decide
      rw [this] at hl
      simp at hl
  exact absurd (key _ hr) (by decide)

end H800
