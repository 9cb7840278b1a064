import Verif.Lemmas.Parallel

/-!
Property C226: runs of listing that take place at the same time.
-/

namespace H800

open Spec

/-! ### C226 -/

/-- C226, the property as stated: if several runs of listing take place at the same time, then when all
have ended the files are as if they had taken place one after the other, in the order given, and each has
ended as it would have ended alone. -/
def C226_statement : Prop := ∀ (disk : Disk) (n : Nat) (argss : List (List Str)) (s : Parallel),
  Parallel.Steps n (Parallel.begin disk argss) s → s.Ended →
  s.disk = argss.foldl (fun d a => (listingD d n a).1) disk ∧
  s.runs.map (·.stop) = argss.map fun a => match (listingD disk n a).2 with
    | .ok _ => none
    | .error e => some e

/-- Two decks with the same listing. -/
def sameListing : Disk := fun f =>
  if f = py "a.x" then some (.file [])
  else if f = py "a.y" then some (.file (utf8Encode (py "\n")))
  else none

theorem write_all {n : Nat} {s0 : Parallel} (es : List Effect) {s : Parallel} {i : Nat}
    {todo : List Str} {stop : Option Stop} (h : Parallel.Steps n s0 s)
    (hr : s.runs[i]? = some ⟨todo, es, stop⟩) :
    ∃ past, Parallel.Steps n s0 ⟨es.foldl Effect.run s.disk, past, s.runs.set i ⟨todo, [], stop⟩⟩ := by
  induction es generalizing s with
  | nil =>
    refine ⟨s.past, ?_⟩
    have : s.runs.set i ⟨todo, [], stop⟩ = s.runs := by
      obtain ⟨hi, he⟩ := List.getElem?_eq_some_iff.1 hr
      rw [← he]
      exact List.set_getElem_self hi
    rw [this]
    exact h
  | cons e es ih =>
    obtain ⟨past, hp⟩ := ih (.more h (.write hr)) (by
      have hi := (List.getElem?_eq_some_iff.1 hr).1
      simp [hi])
    refine ⟨past, ?_⟩
    rw [List.set_set] at hp
    exact hp

/-- C226 is false: two runs that write the same listing, the second of which is the first to end. -/
theorem C226_refuted : ¬ C226_statement := by
  intro h
  have h0 : Parallel.Steps 5 (Parallel.begin sameListing [[py "a.x"], [py "a.y"]])
      (Parallel.begin sameListing [[py "a.x"], [py "a.y"]]) := .none
  have h1 := Parallel.Steps.more h0 (.read (i := 1) (f := py "a.y") (rest := []) (view := sameListing)
    rfl fun g _ => rfl)
  obtain ⟨p1, h2⟩ := write_all (i := 1) (todo := []) (stop := none)
    (ListRun.next 5 sameListing sameListing (py "a.y") []).pending h1 (by decide +kernel)
  have h3 := Parallel.Steps.more h2 (.read (i := 0) (f := py "a.x") (rest := []) rfl fun g _ => rfl)
  obtain ⟨p2, h4⟩ := write_all (i := 0) (todo := []) (stop := none)
    [.truncate (py "a.lst")] h3 (by dsimp only; decide +kernel)
  have h5 := (h _ _ _ _ h4 (by unfold Parallel.Ended; dsimp only; decide +kernel)).1
  have h6 := congrFun h5 (py "a.lst")
  revert h6
  dsimp only
  decide +kernel

theorem apart_of {disk : Disk} {argss : List (List Str)}
    (hr : ∀ args ∈ argss, ∀ f ∈ args, ∀ g, ListingName f g →
      ¬ Reached (textFiles (charsOf disk)) argss.flatten g)
    (hp : argss.Pairwise fun a b => ∀ f ∈ a, ∀ f' ∈ b, ∀ g, ListingName f g → ¬ ListingName f' g) :
    ListApart (Reached (textFiles (charsOf disk)) argss.flatten) disk argss where
  closed _ _ := Reached.include_
  decks args ha f hf := .given (List.mem_flatten.2 ⟨args, ha, hf⟩)
  lists args ha f hf := hr args ha f hf _ (listfileOf_spec f)
  pairs := hp.imp fun {a b} h f hf f' hf' (e : listfileOf f = listfileOf f') =>
    h f hf f' hf' _ (listfileOf_spec f) (by rw [e]; exact listfileOf_spec f')

/-- C226, what holds: if no listing is a file that one of the runs reads, and no two runs write the same
listing, then in whatever order their steps follow on each other, the files are in the end as if the runs
had taken place one after the other, and each has ended as it would have ended alone. -/
theorem C226_apart_partial (disk : Disk) (n : Nat) (argss : List (List Str)) (chars : FileSystem)
    (hst : Stored disk chars)
    (hr : ∀ args ∈ argss, ∀ f ∈ args, ∀ g, ListingName f g →
      ¬ Reached (textFiles chars) argss.flatten g)
    (hp : argss.Pairwise fun a b => ∀ f ∈ a, ∀ f' ∈ b, ∀ g, ListingName f g → ¬ ListingName f' g)
    (s : Parallel) (hs : Parallel.Steps n (Parallel.begin disk argss) s) (he : s.Ended) :
    s.disk = argss.foldl (fun d a => (listingD d n a).1) disk ∧
    s.runs.map (·.stop) = argss.map fun a => match (listingD disk n a).2 with
      | .ok _ => none
      | .error e => some e := by
  obtain rfl := stored_iff.1 hst
  have ha := apart_of hr hp
  obtain ⟨made, hm⟩ := parInv_steps ha hs
  have hend : ∀ i r args, s.runs[i]? = some r → argss[i]? = some args →
      (listingE disk n args).1 = made i ∧
      (listingE disk n args).2 = (match r.stop with
        | none => .ok ()
        | some e => .error e) := by
    intro i r args h1 h2
    have h3 := hm.state i r args h1 h2
    obtain ⟨h4, h5⟩ := he r (List.mem_of_getElem? h1)
    have h6 := h3.all
    have h7 := h3.result
    rw [h5, h4] at h6
    rw [h4] at h7
    refine ⟨?_, ?_⟩
    · rw [h6]
      simp [listingFilesE]
    · rw [h7]
      rfl
  have hget : ∀ (i : Nat) args, argss[i]? = some args → ∃ r, s.runs[i]? = some r := by
    intro i args h
    have hi := (List.getElem?_eq_some_iff.1 h).1
    rw [← hm.length] at hi
    exact ⟨_, List.getElem?_eq_getElem hi⟩
  constructor
  · funext g
    obtain ⟨h1, h2⟩ := sequential_files (n := n) ha ⟨fun _ _ => rfl, fun _ => ⟨Iff.rfl, Iff.rfl⟩⟩
    by_cases hg : ∀ args ∈ argss, ∀ f ∈ args, g ≠ listfileOf f
    · rw [h2 g hg, (hm.other g hg).1]
    · push Not at hg
      obtain ⟨args, hargs, f, hf, rfl⟩ := hg
      obtain ⟨i, hi⟩ := List.mem_iff_getElem?.1 hargs
      obtain ⟨r, hri⟩ := hget i args hi
      rw [h1 args hargs f hf, hm.own i args f hi hf, (hend i r args hri hi).1]
  · refine List.ext_getElem? fun i => ?_
    rw [List.getElem?_map, List.getElem?_map]
    cases hi : argss[i]? with
    | none =>
      have : s.runs[i]? = none := by
        rw [List.getElem?_eq_none_iff] at hi ⊢
        rw [hm.length]
        exact hi
      rw [this]
      rfl
    | some args =>
      obtain ⟨r, hri⟩ := hget i args hi
      rw [hri]
      have h1 := (hend i r args hri hi).2
      have h2 : (listingD disk n args).2 = (listingE disk n args).2 := by
        rw [(C223_finished disk n args).1]
      simp only [Option.map_some, h2, h1]
      cases r.stop <;> rfl

/-- C226: at any moment all files that are no listings are as they were. -/
theorem C226_sources_partial (disk : Disk) (n : Nat) (argss : List (List Str)) (chars : FileSystem)
    (hst : Stored disk chars)
    (hr : ∀ args ∈ argss, ∀ f ∈ args, ∀ g, ListingName f g →
      ¬ Reached (textFiles chars) argss.flatten g)
    (hp : argss.Pairwise fun a b => ∀ f ∈ a, ∀ f' ∈ b, ∀ g, ListingName f g → ¬ ListingName f' g)
    (s : Parallel) (hs : Parallel.Steps n (Parallel.begin disk argss) s) (g : Str)
    (hg : ∀ args ∈ argss, ∀ f ∈ args, ¬ ListingName f g) : s.disk g = disk g := by
  obtain rfl := stored_iff.1 hst
  obtain ⟨made, hm⟩ := parInv_steps (apart_of hr hp) hs
  exact (hm.other g fun args ha f hf e => hg args ha f hf (e ▸ listfileOf_spec f)).1

/-- C226: whatever the arguments, the runs come to an end: there is no endless row of steps, and as long
as they have not all ended, there is a next step. -/
theorem C226_ends_partial (disk : Disk) (n : Nat) (argss : List (List Str)) :
    (∀ row : Nat → Parallel, ¬ ∀ k, Parallel.Step n (row k) (row (k + 1))) ∧
    ∀ s, Parallel.Steps n (Parallel.begin disk argss) s → ¬ s.Ended → ∃ t, Parallel.Step n s t := by
  constructor
  · intro row h
    obtain ⟨m, ⟨k, rfl⟩, hm⟩ := wellFounded_lt.has_min (Set.range fun k => (row k).left) ⟨_, 0, rfl⟩
    exact hm _ ⟨k + 1, rfl⟩ (left_step (h k))
  · intro s hs hne
    have hinv : ∀ r ∈ s.runs, r.stop ≠ none → r.todo = [] ∧ r.pending = [] := by
      clear hne
      induction hs with
      | none =>
        intro r hr hstop
        obtain ⟨args, -, rfl⟩ := List.mem_map.1 hr
        unfold ListRun.begin at hstop ⊢
        split
        · exact ⟨rfl, rfl⟩
        · rename_i h
          rw [if_neg h] at hstop
          exact absurd rfl hstop
      | more h1 h2 ih =>
        intro r hr hstop
        cases h2 with
        | @write i todo e es stop hi =>
          rcases List.mem_or_eq_of_mem_set hr with hr | rfl
          · exact ih r hr hstop
          · cases (ih _ (List.mem_of_getElem? hi) hstop).2
        | @read i f rest view hi hv =>
          rcases List.mem_or_eq_of_mem_set hr with hr | rfl
          · exact ih r hr hstop
          · unfold ListRun.next at hstop ⊢
            split
            · exact ⟨rfl, rfl⟩
            · rename_i h3
              rw [h3] at hstop
              dsimp only at hstop
              split
              · exact ⟨rfl, rfl⟩
              · rename_i h4
                rw [h4] at hstop
                exact absurd rfl hstop
    unfold Parallel.Ended at hne
    push Not at hne
    obtain ⟨⟨todo, pending, stop⟩, hr, h1⟩ := hne
    obtain ⟨i, hi⟩ := List.mem_iff_getElem?.1 hr
    cases pending with
    | cons e es => exact ⟨_, .write hi⟩
    | nil =>
      cases todo with
      | nil => exact absurd rfl (h1 rfl)
      | cons f rest =>
        cases stop with
        | some e => cases (hinv _ hr nofun).1
        | none => exact ⟨_, .read (view := s.disk) hi fun _ _ => rfl⟩

/-- Two decks with different listings, one of which is there. -/
def twoDecks : Disk := fun f =>
  if f = py "a.x" then some (.file (utf8Encode (py "AB\n")))
  else if f = py "b.x" then some (.file (utf8Encode (py "C")))
  else if f = py "b.lst" then some (.file (utf8Encode (py "old")))
  else none

/-- The hypotheses of C226 for two runs, and a schedule in which each has read its deck before the other
writes. -/
example : ∃ chars s, Stored twoDecks chars ∧
    (∀ args ∈ [[py "a.x"], [py "b.x"]], ∀ f ∈ args, ∀ g, ListingName f g →
      ¬ Reached (textFiles chars) [[py "a.x"], [py "b.x"]].flatten g) ∧
    ([[py "a.x"], [py "b.x"]].Pairwise fun a b => ∀ f ∈ a, ∀ f' ∈ b, ∀ g, ListingName f g →
      ¬ ListingName f' g) ∧
    Parallel.Steps 5 (Parallel.begin twoDecks [[py "a.x"], [py "b.x"]]) s ∧ s.Ended := by
  have hr : ∀ g, Reached (textFiles (charsOf twoDecks)) [[py "a.x"], [py "b.x"]].flatten g →
      g = py "a.x" ∨ g = py "b.x" := by
    intro g hg
    induction hg with
    | given h => simpa using h
    | include_ h1 h2 ih =>
      obtain ⟨text, ht, l, hl, -⟩ := h2
      rcases ih with rfl | rfl
      · have : textFiles (charsOf twoDecks) (py "a.x") = some (py "AB\n") := by decide +kernel
        rw [this] at ht
        cases ht
        have : readlines (py "AB\n") = [py "AB\n"] := by decide
        rw [this] at hl
        simp at hl
      · have : textFiles (charsOf twoDecks) (py "b.x") = some (py "C") := by decide +kernel
        rw [this] at ht
        cases ht
        have : readlines (py "C") = [py "C"] := by decide
        rw [this] at hl
        simp at hl
  have h0 : Parallel.Steps 5 (Parallel.begin twoDecks [[py "a.x"], [py "b.x"]])
      (Parallel.begin twoDecks [[py "a.x"], [py "b.x"]]) := .none
  have h1 := Parallel.Steps.more h0 (.read (i := 0) (f := py "a.x") (rest := []) rfl fun g _ => rfl)
  have h2 := Parallel.Steps.more h1 (.read (i := 1) (f := py "b.x") (rest := []) rfl fun g _ => rfl)
  obtain ⟨p1, h3⟩ := write_all (i := 0) (todo := []) (stop := none)
    (ListRun.next 5 twoDecks twoDecks (py "a.x") []).pending h2 (by dsimp only; decide +kernel)
  obtain ⟨p2, h4⟩ := write_all (i := 1) (todo := []) (stop := none)
    (ListRun.next 5 twoDecks twoDecks (py "b.x") []).pending h3 (by dsimp only; decide +kernel)
  refine ⟨_, _, stored_iff.2 rfl, ?_, ?_, h4, ?_⟩
  · intro args ha f hf g hg hg'
    have := listingName_unique hg (listfileOf_spec f)
    subst this
    simp only [List.mem_cons, List.not_mem_nil, or_false] at ha
    rcases ha with rfl | rfl <;> rw [List.mem_singleton] at hf <;> subst hf <;>
      exact absurd (hr _ hg') (by decide)
  · simp only [List.pairwise_cons, List.mem_singleton, List.not_mem_nil, forall_eq]
    refine ⟨fun g h1 h2 => ?_, nofun, .nil⟩
    have := (listingName_unique h1 (listfileOf_spec _)).symm.trans
      (listingName_unique h2 (listfileOf_spec _))
    exact absurd this (by decide)
  · unfold Parallel.Ended
    dsimp only
    decide +kernel

end H800
