import Verif.Model.Parallel
import Verif.Props.Crash
import Mathlib.Data.Prod.Lex

/-! Lemmas for C226. -/

namespace H800

open Spec

/-- The name of the file that is changed. -/
def Effect.on : Effect → Str
  | .truncate name => name
  | .append name _ => name

theorem run_other {d : Disk} {e : Effect} {g : Str} (h : g ≠ e.on) : e.run d g = d g := by
  cases e with
  | truncate name => exact if_neg h
  | append name b => exact if_neg h

theorem run_at {d d' : Disk} {e : Effect} {g : Str} (h : d g = d' g) : e.run d g = e.run d' g := by
  cases e with
  | truncate name => simp only [Effect.run, h]
  | append name b => simp only [Effect.run, h]

theorem runs_at {d d' : Disk} {g : Str} (es : List Effect) (h : d g = d' g) :
    es.foldl Effect.run d g = es.foldl Effect.run d' g := by
  induction es generalizing d d' with
  | nil => exact h
  | cons e es ih => exact ih (run_at h)

theorem runs_other {d : Disk} {g : Str} (es : List Effect) (h : ∀ e ∈ es, g ≠ e.on) :
    es.foldl Effect.run d g = d g := by
  induction es generalizing d with
  | nil => rfl
  | cons e es ih =>
    rw [List.foldl_cons, ih (fun e he => h e (List.mem_cons_of_mem _ he)),
      run_other (h e List.mem_cons_self)]

/-- Directories are directories, and locked files are locked files. -/
def KindsAs (d d' : Disk) : Prop :=
  ∀ g, (d g = some .dir ↔ d' g = some .dir) ∧ (d g = some .locked ↔ d' g = some .locked)

theorem KindsAs.writable {d d' : Disk} (h : KindsAs d d') (g : Str) : Writable d g ↔ Writable d' g := by
  unfold Writable
  rw [Ne, Ne, Ne, Ne, (h g).1, (h g).2]

theorem KindsAs.run {d d' : Disk} (h : KindsAs d d') {e : Effect} (hw : Writable d' e.on) :
    KindsAs (e.run d) d' := by
  intro g
  by_cases hg : g = e.on
  · subst hg
    have hw' := (h.writable _).2 hw
    cases e with
    | truncate name =>
      have : Effect.run d (.truncate name) name = some (.file []) := if_pos rfl
      rw [show (Effect.truncate name).on = name from rfl] at hw ⊢
      rw [this]
      exact ⟨⟨nofun, fun h => absurd h hw.1⟩, ⟨nofun, fun h => absurd h hw.2⟩⟩
    | append name b =>
      rw [show (Effect.append name b).on = name from rfl] at hw hw' ⊢
      have : Effect.run d (.append name b) name = (match d name with
        | some (.file bytes) => some (.file (bytes ++ [b]))
        | node => node) := if_pos rfl
      rw [this]
      cases hd : d name with
      | none => exact ⟨⟨nofun, fun h => absurd h hw.1⟩, ⟨nofun, fun h => absurd h hw.2⟩⟩
      | some node =>
        cases node with
        | file bytes => exact ⟨⟨nofun, fun h => absurd h hw.1⟩, ⟨nofun, fun h => absurd h hw.2⟩⟩
        | locked => exact absurd hd hw'.2
        | dir => exact absurd hd hw'.1
  · rw [run_other hg]
    exact h g

theorem writeE_kinds {d d' : Disk} (h : KindsAs d d') (name text : Str) :
    writeE d name text = writeE d' name text := by
  by_cases hw : Writable d' name
  · rw [(write_ok hw text).1, (write_ok ((h.writable name).2 hw) text).1]
  · unfold writeE
    obtain hd | hd : d' name = some .dir ∨ d' name = some .locked := by
      unfold Writable at hw
      by_cases h1 : d' name = some .dir
      · exact Or.inl h1
      · by_cases h2 : d' name = some .locked
        · exact Or.inr h2
        · exact absurd ⟨h1, h2⟩ hw
    · rw [hd, ((h name).1).2 hd]
    · rw [hd, ((h name).2).2 hd]

/-- What a run of listing does to the files, on a disk that has the same decks and kinds. -/
structure Likewise (S : Str → Prop) (disk0 d : Disk) : Prop where
  decks : AgreeOn S d disk0
  kinds : KindsAs d disk0

theorem Likewise.run {S : Str → Prop} {disk0 d : Disk} (h : Likewise S disk0 d) {e : Effect}
    (hS : ¬ S e.on) (hw : Writable disk0 e.on) : Likewise S disk0 (e.run d) :=
  ⟨fun g hg => (run_other fun he => hS (he ▸ hg)).trans (h.decks g hg), h.kinds.run hw⟩

theorem Likewise.runs {S : Str → Prop} {disk0 d : Disk} (es : List Effect) (h : Likewise S disk0 d)
    (hS : ∀ e ∈ es, ¬ S e.on) (hw : ∀ e ∈ es, Writable disk0 e.on) :
    Likewise S disk0 (es.foldl Effect.run d) := by
  induction es generalizing d with
  | nil => exact h
  | cons e es ih =>
    exact ih (h.run (hS e List.mem_cons_self) (hw e List.mem_cons_self))
      (fun e he => hS e (List.mem_cons_of_mem _ he)) (fun e he => hw e (List.mem_cons_of_mem _ he))

theorem writeE_on {d : Disk} {name text : Str} : ∀ e ∈ (writeE d name text).1,
    e.on = name ∧ Writable d name := by
  intro e he
  by_cases hw : Writable d name
  · rw [(write_ok hw text).1] at he
    rcases List.mem_cons.1 he with rfl | he
    · exact ⟨rfl, hw⟩
    · obtain ⟨b, -, rfl⟩ := List.mem_map.1 he
      exact ⟨rfl, hw⟩
  · obtain ⟨x, h1, -⟩ := write_error hw text
    rw [h1] at he
    cases he

variable {n : Nat} {S : Str → Prop} {disk0 : Disk}

/-- The first file of a run. -/
theorem filesE_cons (hS : ∀ f g, S f → Includes (textFiles (charsOf disk0)) f g → S g) {d view : Disk}
    (hd : Likewise S disk0 d) (hv : AgreeOn S view disk0) (f : Str) (rest : List Str) (hf : S f) :
    (∃ e, ListRun.next n d view f rest = ⟨[], [], some e⟩ ∧
      ∀ d', Likewise S disk0 d' → listingFilesE n d' (f :: rest) = ([], .error e)) ∨
    ∃ es, ListRun.next n d view f rest = ⟨rest, es, none⟩ ∧
      (∀ e ∈ es, e.on = listfileOf f ∧ Writable disk0 e.on) ∧
      ∀ d', Likewise S disk0 d' → listingFilesE n d' (f :: rest) =
        (es ++ (listingFilesE n (es.foldl Effect.run d') rest).1,
          (listingFilesE n (es.foldl Effect.run d') rest).2) := by
  have hdeck : ∀ d', AgreeOn S d' disk0 →
      deckCardsD (α := Empty) false d' n f = deckCardsD false disk0 n f :=
    fun d' h => deckCardsD_congr h hS n f hf
  unfold ListRun.next
  simp only [listingFilesE]
  rw [hdeck view hv]
  rcases hc : deckCardsD (α := Empty) false disk0 n f with ⟨out, e | cards⟩
  · left
    refine ⟨e, rfl, fun d' hd' => ?_⟩
    rw [hdeck d' hd'.decks, hc]
  · dsimp only
    rw [writeE_kinds hd.kinds]
    rcases hw : writeE disk0 (listfileOf f) (cards.flatMap deckLine) with ⟨es, e | ⟨⟩⟩
    · left
      refine ⟨e, rfl, fun d' hd' => ?_⟩
      rw [hdeck d' hd'.decks, hc]
      dsimp only
      rw [writeE_kinds hd'.kinds, hw]
      dsimp only
      by_cases hw' : Writable disk0 (listfileOf f)
      · rw [(write_ok hw' _).1] at hw
        injection hw with _ hw
        cases hw
      · obtain ⟨x, h1, -⟩ := write_error hw' (cards.flatMap deckLine)
        rw [h1] at hw
        injection hw with hw _
        rw [← hw]
    · right
      refine ⟨es, rfl, ?_, fun d' hd' => ?_⟩
      · intro e he
        have := writeE_on (d := disk0) (name := listfileOf f) (text := cards.flatMap deckLine) e
          (by rw [hw]; exact he)
        rw [this.1]
        exact ⟨rfl, this.2⟩
      · rw [hdeck d' hd'.decks, hc]
        dsimp only
        rw [writeE_kinds hd'.kinds, hw]

/-- The changes that a run makes do not depend on what happens to other files. -/
theorem filesE_congr (hS : ∀ f g, S f → Includes (textFiles (charsOf disk0)) f g → S g)
    (args : List Str) (hargs : ∀ f ∈ args, S f) (hlst : ∀ f ∈ args, ¬ S (listfileOf f)) {d : Disk}
    (hd : Likewise S disk0 d) :
    listingFilesE n d args = listingFilesE n disk0 args ∧
    ∀ e ∈ (listingFilesE n disk0 args).1, (∃ f ∈ args, e.on = listfileOf f) ∧ Writable disk0 e.on := by
  have h0 : Likewise S disk0 disk0 := ⟨fun _ _ => rfl, fun _ => ⟨Iff.rfl, Iff.rfl⟩⟩
  induction args generalizing d with
  | nil => exact ⟨rfl, nofun⟩
  | cons f args ih =>
    have ih := fun d hd => @ih (fun f hf => hargs f (List.mem_cons_of_mem _ hf))
      (fun f hf => hlst f (List.mem_cons_of_mem _ hf)) d hd
    rcases filesE_cons (n := n) hS h0 h0.decks f args (hargs f List.mem_cons_self) with
      ⟨e, -, h2⟩ | ⟨es, -, h2, h3⟩
    · rw [h2 d hd, h2 disk0 h0]
      exact ⟨rfl, nofun⟩
    · have hes : ∀ e ∈ es, ¬ S e.on := fun e he => by
        rw [(h2 e he).1]
        exact hlst f List.mem_cons_self
      have hr : ∀ d', Likewise S disk0 d' → Likewise S disk0 (es.foldl Effect.run d') :=
        fun d' hd' => hd'.runs es hes fun e he => (h2 e he).2
      rw [h3 d hd, h3 disk0 h0, (ih _ (hr d hd)).1, (ih _ (hr _ h0)).1]
      refine ⟨rfl, fun e he => ?_⟩
      rcases List.mem_append.1 he with he | he
      · exact ⟨⟨f, List.mem_cons_self, (h2 e he).1⟩, (h2 e he).2⟩
      · obtain ⟨⟨f', hf', h4⟩, h5⟩ := (ih _ h0).2 e he
        exact ⟨⟨f', List.mem_cons_of_mem _ hf', h4⟩, h5⟩

/-- What is known of one of the runs: the changes made, and those to be made. -/
structure RunState (n : Nat) (disk0 : Disk) (args : List Str) (r : ListRun) (made : List Effect) :
    Prop where
  sub : ∀ f ∈ r.todo, f ∈ args
  all : (listingE disk0 n args).1 =
    made ++ r.pending ++ (if r.stop = none then (listingFilesE n disk0 r.todo).1 else [])
  result : (listingE disk0 n args).2 = match r.stop with
    | none => (listingFilesE n disk0 r.todo).2
    | some e => .error e
  ended : r.stop ≠ none → r.todo = [] ∧ r.pending = []

theorem runState_begin (n : Nat) (disk0 : Disk) (args : List Str) :
    RunState n disk0 args (ListRun.begin args) [] := by
  unfold ListRun.begin
  by_cases h : args.length < 1
  · rw [if_pos h]
    refine ⟨nofun, ?_, ?_, fun _ => ⟨rfl, rfl⟩⟩
    · simp [listingE, h]
    · simp [listingE, h]
  · rw [if_neg h]
    refine ⟨fun f hf => hf, ?_, ?_, fun h => absurd rfl h⟩
    · simp only [listingE, if_neg h]
      simp
    · simp only [listingE, if_neg h]

theorem runState_write {args : List Str} {todo : List Str} {e : Effect} {es : List Effect}
    {stop : Option Stop} {made : List Effect} (h : RunState n disk0 args ⟨todo, e :: es, stop⟩ made) :
    RunState n disk0 args ⟨todo, es, stop⟩ (made ++ [e]) := by
  refine ⟨h.sub, ?_, h.result, fun hs => ?_⟩
  · rw [h.all]
    simp
  · cases (h.ended hs).2

theorem runState_read (hS : ∀ f g, S f → Includes (textFiles (charsOf disk0)) f g → S g)
    {args : List Str} (hargs : ∀ f ∈ args, S f) (hlst : ∀ f ∈ args, ¬ S (listfileOf f)) {f : Str}
    {rest : List Str} {made : List Effect} {d view : Disk} (hd : Likewise S disk0 d)
    (hv : AgreeOn S view disk0) (h : RunState n disk0 args ⟨f :: rest, [], none⟩ made) :
    RunState n disk0 args (ListRun.next n d view f rest) made := by
  have h0 : Likewise S disk0 disk0 := ⟨fun _ _ => rfl, fun _ => ⟨Iff.rfl, Iff.rfl⟩⟩
  have hf : f ∈ args := h.sub f List.mem_cons_self
  have hrest : ∀ g ∈ rest, g ∈ args := fun g hg => h.sub g (List.mem_cons_of_mem _ hg)
  have hall := h.all
  have hres := h.result
  simp only [if_true] at hall
  dsimp only at hres
  rcases filesE_cons (n := n) hS hd hv f rest (hargs f hf) with ⟨e, h1, h2⟩ | ⟨es, h1, h2, h3⟩
  · rw [h1]
    rw [h2 _ h0] at hall hres
    refine ⟨nofun, ?_, hres, fun _ => ⟨rfl, rfl⟩⟩
    rw [hall]
    simp
  · rw [h1]
    have hes : Likewise S disk0 (es.foldl Effect.run disk0) :=
      h0.runs es (fun e he => by rw [(h2 e he).1]; exact hlst f hf) fun e he => (h2 e he).2
    rw [h3 _ h0, (filesE_congr hS rest (fun g hg => hargs g (hrest g hg))
      (fun g hg => hlst g (hrest g hg)) hes).1] at hall hres
    refine ⟨hrest, ?_, hres, fun h => absurd rfl h⟩
    rw [hall]
    simp

/-- The invariant of runs that take place at the same time. -/
structure ParInv (n : Nat) (S : Str → Prop) (disk0 : Disk) (argss : List (List Str)) (s : Parallel)
    (made : Nat → List Effect) : Prop where
  length : s.runs.length = argss.length
  state : ∀ i r args, s.runs[i]? = some r → argss[i]? = some args → RunState n disk0 args r (made i)
  own : ∀ i args f, argss[i]? = some args → f ∈ args →
    s.disk (listfileOf f) = (made i).foldl Effect.run disk0 (listfileOf f)
  other : ∀ g, (∀ args ∈ argss, ∀ f ∈ args, g ≠ listfileOf f) → s.disk g = disk0 g ∧
    ∀ d ∈ s.past, d g = disk0 g
  kinds : KindsAs s.disk disk0

theorem parInv_begin (n : Nat) (S : Str → Prop) (disk0 : Disk) (argss : List (List Str)) :
    ParInv n S disk0 argss (Parallel.begin disk0 argss) (fun _ => []) := by
  refine ⟨by simp [Parallel.begin], ?_, fun _ _ _ _ _ => rfl,
    fun _ _ => ⟨rfl, nofun⟩, fun _ => ⟨Iff.rfl, Iff.rfl⟩⟩
  intro i r args h1 h2
  have : r = ListRun.begin args := by
    simp only [Parallel.begin, List.getElem?_map, h2, Option.map_some] at h1
    exact (Option.some.inj h1).symm
  rw [this]
  exact runState_begin n disk0 args

/-- What is asked of the runs: no listing is a deck, and no two runs write the same listing. -/
structure ListApart (S : Str → Prop) (disk0 : Disk) (argss : List (List Str)) : Prop where
  closed : ∀ f g, S f → Includes (textFiles (charsOf disk0)) f g → S g
  decks : ∀ args ∈ argss, ∀ f ∈ args, S f
  lists : ∀ args ∈ argss, ∀ f ∈ args, ¬ S (listfileOf f)
  pairs : argss.Pairwise fun a b => ∀ f ∈ a, ∀ f' ∈ b, listfileOf f ≠ listfileOf f'

theorem ListApart.ne {argss : List (List Str)} (h : ListApart S disk0 argss) {i j : Nat} {a b : List Str}
    (hij : i ≠ j) (ha : argss[i]? = some a) (hb : argss[j]? = some b) {f f' : Str} (hf : f ∈ a)
    (hf' : f' ∈ b) : listfileOf f ≠ listfileOf f' := by
  obtain ⟨hi, rfl⟩ := List.getElem?_eq_some_iff.1 ha
  obtain ⟨hj, rfl⟩ := List.getElem?_eq_some_iff.1 hb
  have hp := List.pairwise_iff_getElem.1 h.pairs
  rcases Nat.lt_or_gt_of_ne hij with hlt | hlt
  · exact hp i j hi hj hlt f hf f' hf'
  · exact (hp j i hj hi hlt f' hf' f hf).symm

theorem listingE_on {argss : List (List Str)} (h : ListApart S disk0 argss) {args : List Str}
    (ha : args ∈ argss) : ∀ e ∈ (listingE disk0 n args).1,
    (∃ f ∈ args, e.on = listfileOf f) ∧ Writable disk0 e.on := by
  intro e he
  unfold listingE at he
  split at he
  · cases he
  · exact (filesE_congr h.closed args (h.decks args ha) (h.lists args ha)
      ⟨fun _ _ => rfl, fun _ => ⟨Iff.rfl, Iff.rfl⟩⟩).2 e he

theorem parInv_step {argss : List (List Str)} (h : ListApart S disk0 argss) {s t : Parallel}
    {made : Nat → List Effect} (hs : ParInv n S disk0 argss s made) (ht : Parallel.Step n s t) :
    ∃ made', ParInv n S disk0 argss t made' := by
  have hlw : Likewise S disk0 s.disk := by
    refine ⟨fun g hg => (hs.other g ?_).1, hs.kinds⟩
    rintro args ha f hf rfl
    exact h.lists args ha f hf hg
  cases ht with
  | @write i todo e es stop hr =>
    obtain ⟨args, ha⟩ : ∃ args, argss[i]? = some args := by
      have := (List.getElem?_eq_some_iff.1 hr).1
      rw [hs.length] at this
      exact ⟨_, List.getElem?_eq_getElem this⟩
    have ham := List.mem_of_getElem? ha
    have hst := hs.state i _ args hr ha
    obtain ⟨⟨f0, hf0, hon⟩, hw⟩ := listingE_on (n := n) h ham e (by rw [hst.all]; simp)
    refine ⟨Function.update made i (made i ++ [e]), ?_, ?_, ?_, ?_, ?_⟩
    · simp [hs.length]
    · intro j r args' hj ha'
      simp only [List.getElem?_set] at hj
      by_cases hij : i = j
      · subst hij
        rw [if_pos rfl] at hj
        have hlt := (List.getElem?_eq_some_iff.1 hr).1
        rw [if_pos hlt] at hj
        injection hj with hj
        subst hj
        rw [ha] at ha'
        injection ha' with ha'
        subst ha'
        rw [Function.update_self]
        exact runState_write hst
      · rw [if_neg hij] at hj
        rw [Function.update_of_ne (Ne.symm hij)]
        exact hs.state j r args' hj ha'
    · intro j args' f ha' hf
      by_cases hij : i = j
      · subst hij
        rw [Function.update_self, List.foldl_append]
        exact run_at (hs.own i args' f ha' hf)
      · rw [Function.update_of_ne (Ne.symm hij), ← hs.own j args' f ha' hf]
        refine run_other ?_
        rw [hon]
        exact h.ne (Ne.symm hij) ha' ha hf hf0
    · intro g hg
      have hne : g ≠ e.on := by
        rw [hon]
        exact hg args ham f0 hf0
      refine ⟨(run_other hne).trans (hs.other g hg).1, fun d hd => ?_⟩
      rcases List.mem_cons.1 hd with rfl | hd
      · exact (hs.other g hg).1
      · exact (hs.other g hg).2 d hd
    · exact hs.kinds.run hw
  | @read i f rest view hr hv =>
    have hview : AgreeOn S view disk0 := by
      intro g hg
      have ho := hs.other g (by
        rintro args ha f hf rfl
        exact h.lists args ha f hf hg)
      rw [hv g fun d hd => (ho.2 d hd).trans ho.1.symm]
      exact ho.1
    refine ⟨made, ?_, ?_, hs.own, hs.other, hs.kinds⟩
    · simp [hs.length]
    · intro j r args hj ha
      simp only [List.getElem?_set] at hj
      by_cases hij : i = j
      · subst hij
        rw [if_pos rfl, if_pos (List.getElem?_eq_some_iff.1 hr).1] at hj
        injection hj with hj
        subst hj
        have ham := List.mem_of_getElem? ha
        exact runState_read h.closed (h.decks args ham) (h.lists args ham) hlw hview
          (hs.state i _ args hr ha)
      · rw [if_neg hij] at hj
        exact hs.state j r args hj ha

theorem parInv_steps {argss : List (List Str)} (h : ListApart S disk0 argss) {s : Parallel}
    (hs : Parallel.Steps n (Parallel.begin disk0 argss) s) :
    ∃ made, ParInv n S disk0 argss s made := by
  induction hs with
  | none => exact ⟨_, parInv_begin n S disk0 argss⟩
  | more h1 h2 ih =>
    obtain ⟨made, hm⟩ := ih
    exact parInv_step h hm h2

/-- The runs one after another. -/
theorem sequential_files {argss : List (List Str)} (h : ListApart S disk0 argss) {d : Disk}
    (hd : Likewise S disk0 d) :
    (∀ args ∈ argss, ∀ f ∈ args,
      argss.foldl (fun d a => (listingD d n a).1) d (listfileOf f) =
        (listingE disk0 n args).1.foldl Effect.run d (listfileOf f)) ∧
    ∀ g, (∀ args ∈ argss, ∀ f ∈ args, g ≠ listfileOf f) →
      argss.foldl (fun d a => (listingD d n a).1) d g = d g := by
  induction argss generalizing d with
  | nil => exact ⟨nofun, fun _ _ => rfl⟩
  | cons a argss ih =>
    have h' : ListApart S disk0 argss := ⟨h.closed, fun b hb => h.decks b (List.mem_cons_of_mem _ hb),
      fun b hb => h.lists b (List.mem_cons_of_mem _ hb), (List.pairwise_cons.1 h.pairs).2⟩
    have hon := listingE_on (n := n) h (List.mem_cons_self (a := a) (l := argss))
    have hE : listingE d n a = listingE disk0 n a := by
      unfold listingE
      split
      · rfl
      · exact (filesE_congr h.closed a (h.decks a List.mem_cons_self) (h.lists a List.mem_cons_self)
          hd).1
    have hD : (listingD d n a).1 = (listingE disk0 n a).1.foldl Effect.run d := by
      rw [(C223_finished d n a).1, hE]
    have hlw : Likewise S disk0 (listingD d n a).1 := by
      rw [hD]
      refine hd.runs _ (fun e he => ?_) fun e he => (hon e he).2
      obtain ⟨⟨f, hf, h1⟩, -⟩ := hon e he
      rw [h1]
      exact h.lists a List.mem_cons_self f hf
    obtain ⟨ih1, ih2⟩ := ih h' hlw
    have hpair := (List.pairwise_cons.1 h.pairs).1
    constructor
    · intro args ha f hf
      rw [List.foldl_cons]
      rcases List.mem_cons.1 ha with rfl | ha
      · rw [ih2 _ fun b hb f' hf' => hpair b hb f hf f' hf', hD]
      · rw [ih1 args ha f hf]
        refine runs_at _ ?_
        rw [hD]
        refine runs_other _ fun e he => ?_
        obtain ⟨⟨f', hf', h1⟩, -⟩ := hon e he
        rw [h1]
        exact (hpair args ha f' hf' f hf).symm
    · intro g hg
      rw [List.foldl_cons, ih2 g fun b hb => hg b (List.mem_cons_of_mem _ hb), hD]
      refine runs_other _ fun e he => ?_
      obtain ⟨⟨f', hf', h1⟩, -⟩ := hon e he
      rw [h1]
      exact hg a List.mem_cons_self f' hf'

/-! ### The number of steps -/

theorem sum_set {α : Type} (f : α → Nat) (l : List α) (i : Nat) (r r' : α) (h : l[i]? = some r) :
    ((l.set i r').map f).sum + f r = (l.map f).sum + f r' := by
  induction l generalizing i with
  | nil => cases h
  | cons x l ih =>
    cases i with
    | zero =>
      injection h with h
      subst h
      simp only [List.set_cons_zero, List.map_cons, List.sum_cons]
      omega
    | succ i =>
      have := ih i h
      simp only [List.set_cons_succ, List.map_cons, List.sum_cons]
      omega

/-- The files not yet read, and the changes not yet made. -/
def Parallel.left (s : Parallel) : Nat ×ₗ Nat :=
  toLex ((s.runs.map fun r => r.todo.length).sum, (s.runs.map fun r => r.pending.length).sum)

theorem left_step {s t : Parallel} (h : Parallel.Step n s t) : t.left < s.left := by
  cases h with
  | @write i todo e es stop hr =>
    have h1 := sum_set (fun r => r.todo.length) s.runs i _ ⟨todo, es, stop⟩ hr
    have h2 := sum_set (fun r => r.pending.length) s.runs i _ ⟨todo, es, stop⟩ hr
    refine Prod.Lex.toLex_lt_toLex.2 (Or.inr ⟨?_, ?_⟩)
    · dsimp only at h1 ⊢; omega
    · simp only [List.length_cons] at h2 ⊢; omega
  | @read i f rest view hr hv =>
    have h1 := sum_set (fun r => r.todo.length) s.runs i _ (ListRun.next n s.disk view f rest) hr
    refine Prod.Lex.toLex_lt_toLex.2 (Or.inl ?_)
    have h2 : (ListRun.next n s.disk view f rest).todo.length ≤ rest.length := by
      unfold ListRun.next
      split
      · exact Nat.zero_le _
      · split
        · exact Nat.zero_le _
        · exact Nat.le_refl _
    simp only [List.length_cons] at h1 ⊢
    omega

end H800
