import Verif.Lemmas.CrashPages
import Verif.Lemmas.Parallel
import Verif.Props.Crash
import Verif.Props.CrashPages
import Verif.Model.ParallelPages

/-!
Property C239: runs of genpages that take place at the same time.
-/

namespace H800

open Spec

/-- What genpages does depends on its file only. -/
theorem genpagesE_at {d d' : Disk} {g : Str} (n : Nat) (h : d g = d' g) :
    genpagesE d n [g] = genpagesE d' n [g] := by
  unfold genpagesE
  simp only [h]

/-- It appends to its file. -/
theorem genpagesE_on (d : Disk) (n : Nat) (f : Str) : ∀ e ∈ (genpagesE d n [f]).1, e.on = f := by
  rcases pages_run n d f with ⟨e, h, -⟩ | ⟨s, sec, col8, start, end_, -, -, -, h, -⟩
  · rw [h]; simp
  · rw [h]
    intro e he
    simp only [List.mem_map] at he
    obtain ⟨b, -, rfl⟩ := he
    rfl

/-- The changes that a run on `f` alone would make, `k` times. -/
def pagesTimes (disk : Disk) (n : Nat) (f : Str) (k : Nat) : Disk :=
  (List.replicate k (genpagesE disk n [f]).1).flatten.foldl Effect.run disk

theorem pagesTimes_succ (disk : Disk) (n : Nat) (f : Str) (k : Nat) :
    pagesTimes disk n f (k + 1) = (genpagesE disk n [f]).1.foldl Effect.run (pagesTimes disk n f k) := by
  unfold pagesTimes
  rw [List.replicate_succ', List.flatten_append, List.foldl_append]
  simp

/-- A run on the file fails, or the file has a log card. -/
def Settled (disk : Disk) (n : Nat) (f : Str) : Prop :=
  (∃ e, (genpagesE disk n [f]).2 = .error e) ∨
    ∃ s, disk f = some (.file (encoded s)) ∧ ∃ l ∈ readlines (universal s), l.head? = some 'L'

/-- However often the text was appended, the next run appends it again. -/
theorem settled_again {disk : Disk} {n : Nat} {f : Str} (h : Settled disk n f) (d : Disk) (k : Nat)
    (hd : d f = pagesTimes disk n f k f) : genpagesE d n [f] = genpagesE disk n [f] := by
  rw [genpagesE_at n hd]
  rcases pages_run n disk f with ⟨e, h1, -⟩ | ⟨s, sec, col8, start, end_, h1, hi, hle, h2, -⟩
  · have : pagesTimes disk n f k = disk := by
      unfold pagesTimes
      rw [h1]
      induction k with
      | zero => rfl
      | succ k ih => rw [List.replicate_succ, List.flatten_cons]; exact ih (hd.trans (by
          unfold pagesTimes; rw [h1]; rfl))
    rw [this]
  · have hL : HasLog (readlines (universal s)) := by
      rcases h with ⟨e, he⟩ | ⟨t, ht, hl⟩
      · rw [h2] at he; cases he
      · rw [h1] at ht
        simp only [Option.some.injEq, Node.file.injEq] at ht
        have := utf8Decode_iff.2 ht
        rw [utf8Decode_iff.2 rfl] at this
        cases Option.some.inj this
        exact hl
    have key : ∀ k, ∃ t, pagesTimes disk n f k f = some (.file (encoded t)) ∧
        pagesInfo (fun _ => none) n (readlines (universal t)) =
          .ok ⟨some sec, col8, some (start, end_)⟩ ∧ HasLog (readlines (universal t)) := by
      intro k
      induction k with
      | zero => exact ⟨s, h1, hi, hL⟩
      | succ k ih =>
        obtain ⟨t, ht, hit, hLt⟩ := ih
        obtain ⟨-, sec', col8', hi', hl'⟩ := pagesInfo_begun (fun _ => none) n hit (List.prefix_refl _)
        obtain ⟨rfl, rfl, hL'⟩ := hl' hLt
        refine ⟨_, ?_, hi', hL'⟩
        rw [pagesTimes_succ, h2]
        show ((encoded (pagesLines col8' sec' start end_).flatten).map (.append f)).foldl
          Effect.run _ f = _
        rw [appends_run _ ht, putFile_self, encoded_append]
    obtain ⟨t, ht, hit, -⟩ := key k
    rw [(pages_writes ht hit hle).1, h2]

/-! ### Steps -/

theorem pages_step_cases (cut : Nat → List Effect → List (List Effect)) (n : Nat) (s : ParallelPages)
    (i : Nat) : s.step cut n i = s ∨
    (∃ f st e, s.runs[i]? = some ⟨f, none, st⟩ ∧ (genpagesE s.disk n [f]).2 = .error e ∧
      (genpagesE s.disk n [f]).1 = [] ∧
      s.step cut n i = { s with runs := s.runs.set i ⟨f, some [], some e⟩ }) ∨
    (∃ f st, s.runs[i]? = some ⟨f, none, st⟩ ∧ (genpagesE s.disk n [f]).2 = .ok () ∧
      s.step cut n i =
        { s with runs := s.runs.set i ⟨f, some (cut i (genpagesE s.disk n [f]).1), none⟩ }) ∨
    (∃ f p ps st, s.runs[i]? = some ⟨f, some (p :: ps), st⟩ ∧
      s.step cut n i = ⟨p.foldl Effect.run s.disk, s.runs.set i ⟨f, some ps, st⟩⟩) := by
  unfold ParallelPages.step
  cases hr : s.runs[i]? with
  | none => exact Or.inl rfl
  | some r =>
    obtain ⟨f, pending, st⟩ := r
    cases pending with
    | none =>
      refine Or.inr ?_
      rcases pages_run n s.disk f with ⟨e, h1, -⟩ | ⟨t, sec, col8, start, end_, -, -, -, h2, -⟩
      · refine Or.inl ⟨f, st, e, rfl, ?_, ?_, ?_⟩ <;> simp only [h1]
      · refine Or.inr (Or.inl ⟨f, st, rfl, ?_, ?_⟩) <;> simp only [h2]
    | some ps =>
      cases ps with
      | nil => exact Or.inl rfl
      | cons p ps => exact Or.inr (Or.inr (Or.inr ⟨f, p, ps, st, rfl, rfl⟩))

theorem pages_keeps (cut : Nat → List Effect → List (List Effect)) (n : Nat)
    (I : ParallelPages → Prop) (hI : ∀ s i, I s → I (s.step cut n i)) (schedule : List Nat) :
    ∀ s, I s → I (s.run cut n schedule) := by
  induction schedule with
  | nil => intro s h; exact h
  | cons i l ih => intro s h; exact ih _ (hI s i h)

theorem files_set {runs : List PageRun} {i : Nat} {r r' : PageRun} (h : runs[i]? = some r)
    (hf : r'.file = r.file) : (runs.set i r').map (·.file) = runs.map (·.file) := by
  rw [List.map_set, hf]
  apply List.ext_getElem?
  intro j
  by_cases hij : i = j
  · subst hij
    have hi := (List.getElem?_eq_some_iff.1 h).1
    rw [List.getElem?_set_self (by simpa using hi), List.getElem?_map, h]
    rfl
  · rw [List.getElem?_set_ne hij]

theorem countP_set_run (p : PageRun → Bool) {a b : PageRun} : ∀ (l : List PageRun) (i : Nat),
    l[i]? = some a →
    (l.set i b).countP p + (if p a then 1 else 0) = l.countP p + (if p b then 1 else 0) := by
  intro l
  induction l with
  | nil => intro i h; simp at h
  | cons x l ih =>
    intro i h
    cases i with
    | zero =>
      simp only [List.getElem?_cons_zero, Option.some.injEq] at h
      subst h
      simp only [List.set_cons_zero, List.countP_cons]
      omega
    | succ i =>
      have := ih i (by simpa using h)
      simp only [List.set_cons_succ, List.countP_cons]
      omega

/-- How a run on `f` alone ends. -/
def pagesStop (disk : Disk) (n : Nat) (f : Str) : Option Stop :=
  match (genpagesE disk n [f]).2 with
  | .ok _ => none
  | .error e => some e

/-! ### Texts appended in one piece -/

/-- The number of runs on `g` that have ended. -/
def ParallelPages.ended (s : ParallelPages) (g : Str) : Nat :=
  s.runs.countP fun r => r.file = g ∧ r.pending = some []

/-- What holds after all steps if texts are appended in one piece. -/
structure WholeInv (disk : Disk) (n : Nat) (files : List Str) (s : ParallelPages) : Prop where
  same : s.runs.map (·.file) = files
  grown : ∀ g, s.disk g = pagesTimes disk n g (s.ended g) g
  each : ∀ (i : Nat) (r : PageRun), s.runs[i]? = some r → r.pending = none ∨
    ((r.pending = some [] ∨ r.pending = some [(genpagesE disk n [r.file]).1]) ∧
      r.stop = pagesStop disk n r.file)

theorem pagesTimes_fails {disk : Disk} {n : Nat} {f : Str} (h : (genpagesE disk n [f]).1 = []) (k : Nat) :
    pagesTimes disk n f k = disk := by
  unfold pagesTimes
  rw [h]
  induction k with
  | zero => rfl
  | succ k ih => rw [List.replicate_succ, List.flatten_cons]; exact ih

theorem whole_step {disk : Disk} {n : Nat} {files : List Str}
    {cut : Nat → List Effect → List (List Effect)} (hcut : ∀ i es, cut i es = [es])
    (hset : ∀ f ∈ files, Settled disk n f) (s : ParallelPages) (i : Nat)
    (h : WholeInv disk n files s) : WholeInv disk n files (s.step cut n i) := by
  rcases pages_step_cases cut n s i with hs | ⟨f, st, e, hr, he, hnil, hs⟩ | ⟨f, st, hr, hok, hs⟩ |
    ⟨f, p, ps, st, hr, hs⟩
  · rw [hs]; exact h
  · have hf : f ∈ files := by
      rw [← h.same]; exact List.mem_map.2 ⟨_, List.mem_of_getElem? hr, rfl⟩
    have hsame := settled_again (hset f hf) s.disk _ (h.grown f)
    rw [hs]
    refine ⟨(files_set hr (by rfl)).trans h.same, ?_, ?_⟩
    · intro g
      have hc := countP_set_run (b := ⟨f, some [], some e⟩)
        (fun r => decide (r.file = g ∧ r.pending = some [])) s.runs i hr
      simp only [ParallelPages.ended]
      rw [h.grown g]
      by_cases hg : f = g
      · subst hg
        rw [hsame] at hnil
        rw [pagesTimes_fails hnil, pagesTimes_fails hnil]
      · simp only [hg, false_and, decide_false, Bool.false_eq_true, if_false, Nat.add_zero] at hc
        rw [hc]
        rfl
    · intro j r hj
      by_cases hij : i = j
      · subst hij
        simp only at hj
        rw [List.getElem?_set_self (List.getElem?_eq_some_iff.1 hr).1] at hj
        cases hj
        refine Or.inr ⟨Or.inl rfl, ?_⟩
        simp only [pagesStop]
        rw [← hsame, he]
      · simp only at hj
        rw [List.getElem?_set_ne hij] at hj
        exact h.each j r hj
  · have hf : f ∈ files := by
      rw [← h.same]; exact List.mem_map.2 ⟨_, List.mem_of_getElem? hr, rfl⟩
    have hsame := settled_again (hset f hf) s.disk _ (h.grown f)
    rw [hs]
    refine ⟨(files_set hr (by rfl)).trans h.same, ?_, ?_⟩
    · intro g
      have hc := countP_set_run (b := ⟨f, some (cut i (genpagesE s.disk n [f]).1), none⟩)
        (fun r => decide (r.file = g ∧ r.pending = some [])) s.runs i hr
      simp only [ParallelPages.ended]
      rw [h.grown g]
      simp only [hcut, Option.some.injEq, List.cons_ne_self, reduceCtorEq, and_false, decide_false,
        Bool.false_eq_true, if_false, Nat.add_zero] at hc ⊢
      rw [hc]
      rfl
    · intro j r hj
      by_cases hij : i = j
      · subst hij
        simp only at hj
        rw [List.getElem?_set_self (List.getElem?_eq_some_iff.1 hr).1] at hj
        cases hj
        refine Or.inr ⟨Or.inr ?_, ?_⟩
        · simp only [hcut, hsame]
        · simp only [pagesStop]
          rw [← hsame, hok]
      · simp only at hj
        rw [List.getElem?_set_ne hij] at hj
        exact h.each j r hj
  · have hp : p = (genpagesE disk n [f]).1 ∧ ps = [] ∧ st = pagesStop disk n f := by
      rcases h.each i _ hr with h0 | ⟨h0 | h0, h1⟩
      · cases h0
      · cases h0
      · simp only [Option.some.injEq, List.cons.injEq] at h0; exact ⟨h0.1, h0.2, h1⟩
    obtain ⟨rfl, rfl, rfl⟩ := hp
    rw [hs]
    refine ⟨(files_set hr (by rfl)).trans h.same, ?_, ?_⟩
    · intro g
      have hc := countP_set_run (b := ⟨f, some [], pagesStop disk n f⟩)
        (fun r => decide (r.file = g ∧ r.pending = some [])) s.runs i hr
      simp only [ParallelPages.ended]
      by_cases hg : f = g
      · subst hg
        simp only [true_and, Option.some.injEq, reduceCtorEq, decide_false, decide_true,
          Bool.false_eq_true, if_false, if_true, Nat.add_zero] at hc
        rw [hc, pagesTimes_succ]
        exact runs_at _ (h.grown f)
      · simp only [hg, false_and, decide_false, Bool.false_eq_true, if_false, Nat.add_zero] at hc
        rw [hc, runs_other]
        · exact h.grown g
        · intro e he
          rw [genpagesE_on disk n f e he]
          exact fun e => hg e.symm
    · intro j r hj
      by_cases hij : i = j
      · subst hij
        simp only at hj
        rw [List.getElem?_set_self (List.getElem?_eq_some_iff.1 hr).1] at hj
        cases hj
        exact Or.inr ⟨Or.inl rfl, rfl⟩
      · simp only at hj
        rw [List.getElem?_set_ne hij] at hj
        exact h.each j r hj

theorem whole_begin (disk : Disk) (n : Nat) (files : List Str) :
    WholeInv disk n files (ParallelPages.begin disk files) := by
  refine ⟨by simp [ParallelPages.begin, Function.comp_def], ?_, ?_⟩
  · intro g
    have : (ParallelPages.begin disk files).ended g = 0 := by
      simp [ParallelPages.ended, ParallelPages.begin, List.countP_map, List.countP_eq_zero]
    rw [this]
    rfl
  · intro i r h
    simp only [ParallelPages.begin, List.getElem?_map, Option.map_eq_some_iff] at h
    obtain ⟨f, -, rfl⟩ := h
    exact Or.inl rfl

theorem ended_all {s : ParallelPages} {files : List Str} (hf : s.runs.map (·.file) = files)
    (h : s.Ended) (g : Str) : s.ended g = files.count g := by
  rw [← hf, List.count, List.countP_map]
  unfold ParallelPages.ended
  apply List.countP_congr
  intro r hr
  simp [h r hr, Function.comp]

/-- Runs one after the other on files that have log cards or on which the runs fail. -/
theorem serial_whole {disk : Disk} {n : Nat} (g : Str) (l : List Str) : ∀ (d : Disk)
    (m : Str → Nat), (∀ f ∈ l, Settled disk n f) → (∀ f, d f = pagesTimes disk n f (m f) f) →
    serialPages n d l g = pagesTimes disk n g (m g + l.count g) g := by
  induction l with
  | nil => intro d m _ hd; simpa [serialPages] using hd g
  | cons f l ih =>
    intro d m hset hd
    have hsame := settled_again (hset f List.mem_cons_self) d (m f) (hd f)
    have hstep : (genpagesD d n [f]).1 = (genpagesE disk n [f]).1.foldl Effect.run d := by
      rw [(C223_finished d n [f]).2, hsame]
    show serialPages n (genpagesD d n [f]).1 l g = _
    rw [ih _ (fun x => m x + if f = x then 1 else 0)
      (fun x hx => hset x (List.mem_cons_of_mem _ hx)) ?_]
    · rw [List.count_cons]
      congr 1
      by_cases hg : f = g
      · simp [hg]; omega
      · simp [hg]
    · intro x
      rw [hstep]
      by_cases hx : f = x
      · subst hx
        simp only [if_true]
        rw [pagesTimes_succ]
        exact runs_at _ (hd f)
      · simp only [hx, if_false, Nat.add_zero]
        rw [runs_other]
        · exact hd x
        · intro e he
          rw [genpagesE_on disk n f e he]
          exact fun e => hx e.symm

/-! ### Different files -/

/-- What holds after all steps if the runs have different files. -/
structure ApartInv (disk : Disk) (n : Nat) (files : List Str) (s : ParallelPages) : Prop where
  same : s.runs.map (·.file) = files
  others : ∀ g, g ∉ files → s.disk g = disk g
  unread : ∀ (i : Nat) (r : PageRun), s.runs[i]? = some r → r.pending = none → s.disk r.file = disk r.file
  read : ∀ (i : Nat) (r : PageRun) (ps : List (List Effect)), s.runs[i]? = some r → r.pending = some ps →
    r.stop = pagesStop disk n r.file ∧
    ∃ w, w ++ ps.flatten = (genpagesE disk n [r.file]).1 ∧ s.disk r.file = w.foldl Effect.run disk r.file

theorem apart_other {runs : List PageRun} {files : List Str} (hf : runs.map (·.file) = files)
    (hnd : files.Nodup) {i j : Nat} {r r' : PageRun} (hi : runs[i]? = some r) (hj : runs[j]? = some r')
    (hij : i ≠ j) : r'.file ≠ r.file := by
  intro he
  subst hf
  have h1 : (runs.map (·.file))[i]? = some r.file := by rw [List.getElem?_map, hi]; rfl
  have h2 : (runs.map (·.file))[j]? = some r.file := by rw [List.getElem?_map, hj]; simp [he]
  obtain ⟨hi', -⟩ := List.getElem?_eq_some_iff.1 h1
  exact hij ((List.getElem?_inj hi' hnd).1 (h1.trans h2.symm))

theorem apart_step {disk : Disk} {n : Nat} {files : List Str}
    {cut : Nat → List Effect → List (List Effect)} (hcut : ∀ i es, (cut i es).flatten = es)
    (hnd : files.Nodup) (s : ParallelPages) (i : Nat)
    (h : ApartInv disk n files s) : ApartInv disk n files (s.step cut n i) := by
  have keep : ∀ (f : Str) (st : Option Stop) (ps : List (List Effect)) (st' : Option Stop),
      s.runs[i]? = some ⟨f, none, st⟩ → st' = pagesStop disk n f →
      ps.flatten = (genpagesE disk n [f]).1 →
      ApartInv disk n files { s with runs := s.runs.set i ⟨f, some ps, st'⟩ } := by
    intro f st ps st' hr hst hps
    refine ⟨(files_set hr (by rfl)).trans h.same, h.others, ?_, ?_⟩
    · intro j r hj hp
      by_cases hij : i = j
      · subst hij
        simp only at hj
        rw [List.getElem?_set_self (List.getElem?_eq_some_iff.1 hr).1] at hj
        cases hj
        cases hp
      · simp only at hj
        rw [List.getElem?_set_ne hij] at hj
        exact h.unread j r hj hp
    · intro j r qs hj hp
      by_cases hij : i = j
      · subst hij
        simp only at hj
        rw [List.getElem?_set_self (List.getElem?_eq_some_iff.1 hr).1] at hj
        cases hj
        cases hp
        exact ⟨hst, [], hps, h.unread i ⟨f, none, st⟩ hr rfl⟩
      · simp only at hj
        rw [List.getElem?_set_ne hij] at hj
        exact h.read j r qs hj hp
  rcases pages_step_cases cut n s i with hs | ⟨f, st, e, hr, he, hnil, hs⟩ | ⟨f, st, hr, hok, hs⟩ |
    ⟨f, p, ps, st, hr, hs⟩
  · rw [hs]; exact h
  · have hsame := genpagesE_at n (h.unread i _ hr rfl)
    rw [hs]
    refine keep f st [] (some e) hr ?_ ?_
    · simp only [pagesStop]; rw [← hsame]; simp only [he]
    · rw [← hsame]; exact hnil.symm
  · have hsame := genpagesE_at n (h.unread i _ hr rfl)
    rw [hs]
    refine keep f st _ none hr ?_ ?_
    · simp only [pagesStop]; rw [← hsame]; simp only [hok]
    · rw [hcut]; exact congrArg Prod.fst hsame
  · obtain ⟨hst, w, hw, hd⟩ := h.read i _ _ hr rfl
    simp only at hst hw hd
    have hon : ∀ e ∈ p, e.on = f := by
      intro e he
      apply genpagesE_on disk n f
      rw [← hw]
      simp [he]
    have hother : ∀ g, g ≠ f → p.foldl Effect.run s.disk g = s.disk g := by
      intro g hg
      apply runs_other
      intro e he
      rw [hon e he]
      exact hg
    have hf : f ∈ files := by
      rw [← h.same]; exact List.mem_map.2 ⟨_, List.mem_of_getElem? hr, rfl⟩
    rw [hs]
    refine ⟨(files_set hr (by rfl)).trans h.same, ?_, ?_, ?_⟩
    · intro g hg
      show p.foldl Effect.run s.disk g = disk g
      rw [hother g (fun e => hg (e ▸ hf))]
      exact h.others g hg
    · intro j r hj hp
      by_cases hij : i = j
      · subst hij
        simp only at hj
        rw [List.getElem?_set_self (List.getElem?_eq_some_iff.1 hr).1] at hj
        cases hj
        cases hp
      · simp only at hj
        rw [List.getElem?_set_ne hij] at hj
        show p.foldl Effect.run s.disk r.file = disk r.file
        rw [hother _ (apart_other h.same hnd hr hj hij)]
        exact h.unread j r hj hp
    · intro j r qs hj hp
      by_cases hij : i = j
      · subst hij
        simp only at hj
        rw [List.getElem?_set_self (List.getElem?_eq_some_iff.1 hr).1] at hj
        cases hj
        cases hp
        refine ⟨hst, w ++ p, ?_, ?_⟩
        · rw [← hw]; simp
        · show p.foldl Effect.run s.disk f = (w ++ p).foldl Effect.run disk f
          rw [List.foldl_append]
          exact runs_at _ hd
      · simp only at hj
        rw [List.getElem?_set_ne hij] at hj
        obtain ⟨h1, v, h2, h3⟩ := h.read j r qs hj hp
        refine ⟨h1, v, h2, ?_⟩
        show p.foldl Effect.run s.disk r.file = _
        rw [hother _ (apart_other h.same hnd hr hj hij)]
        exact h3

theorem apart_begin (disk : Disk) (n : Nat) (files : List Str) :
    ApartInv disk n files (ParallelPages.begin disk files) := by
  refine ⟨by simp [ParallelPages.begin, Function.comp_def], fun g _ => rfl, fun i r _ _ => rfl, ?_⟩
  intro i r ps h hp
  simp only [ParallelPages.begin, List.getElem?_map, Option.map_eq_some_iff] at h
  obtain ⟨f, -, rfl⟩ := h
  cases hp

theorem serial_apart {disk : Disk} {n : Nat} (g : Str) (l : List Str) : ∀ d : Disk, l.Nodup →
    (∀ f ∈ l, d f = disk f) →
    serialPages n d l g = if g ∈ l then (genpagesE disk n [g]).1.foldl Effect.run disk g else d g := by
  induction l with
  | nil => intro d _ _; rfl
  | cons f l ih =>
    intro d hnd hd
    rw [List.nodup_cons] at hnd
    have hstep : (genpagesD d n [f]).1 = (genpagesE disk n [f]).1.foldl Effect.run d := by
      rw [(C223_finished d n [f]).2, genpagesE_at n (hd f List.mem_cons_self)]
    have hother : ∀ x, f ≠ x → (genpagesD d n [f]).1 x = d x := by
      intro x hx
      rw [hstep]
      apply runs_other
      intro e he
      rw [genpagesE_on disk n f e he]
      exact fun e => hx e.symm
    show serialPages n (genpagesD d n [f]).1 l g = _
    rw [ih _ hnd.2 (fun x hx => by
      rw [hother x (fun e => hnd.1 (e ▸ hx))]; exact hd x (List.mem_cons_of_mem _ hx))]
    by_cases hg : f = g
    · subst hg
      rw [if_neg hnd.1, if_pos List.mem_cons_self, hstep]
      exact runs_at _ (hd f List.mem_cons_self)
    · by_cases hm : g ∈ l
      · rw [if_pos hm, if_pos (List.mem_cons_of_mem _ hm)]
      · rw [if_neg hm, if_neg (by simp [hm, Ne.symm hg]), hother g hg]

/-! ### C239 -/

/-- C239: if several runs of genpages take place at the same time, then when all have ended the files are
as if they had taken place one after the other, in some order. -/
def C239_statement : Prop := ∀ (disk : Disk) (n : Nat) (files : List Str)
  (cut : Nat → List Effect → List (List Effect)) (schedule : List Nat),
  (∀ i es, (cut i es).flatten = es) →
  ((ParallelPages.begin disk files).run cut n schedule).Ended →
  ∃ order, order.Perm files ∧
    ((ParallelPages.begin disk files).run cut n schedule).disk = serialPages n disk order

theorem order_twice {order : List Str} {f : Str} (h : order.Perm [f, f]) : order = [f, f] := by
  have h1 : order.Perm (List.replicate 2 f) := h
  exact List.perm_replicate.1 h1

/-- C239 is false: two runs that append their texts to the same file, in two pieces each, mix them. -/
theorem C239_refuted : ¬ C239_statement := by
  intro h
  obtain ⟨order, h1, h2⟩ := h crashLog 1 [py "A.arg", py "A.arg"]
    (fun _ es => [es.take 10, es.drop 10]) [0, 1, 0, 1, 0, 1] (fun _ es => by simp) (by decide +kernel)
  rw [order_twice h1] at h2
  have h3 := congrFun h2 (py "A.arg")
  revert h3
  decide +kernel

/-- C239 is false even if each text is appended in one piece: of a file without log card the second run
would find the log card of the first one. -/
theorem C239_refuted_whole : ∃ (disk : Disk) (f : Str) (schedule : List Nat),
    ((ParallelPages.begin disk [f, f]).run (fun _ es => [es]) 1 schedule).Ended ∧
    ∀ order, order.Perm [f, f] →
      ((ParallelPages.begin disk [f, f]).run (fun _ es => [es]) 1 schedule).disk ≠
        serialPages 1 disk order := by
  refine ⟨fun f => if f = py "A" then some (.file (encoded (py "# Filename: _A.arg\n# Pages: 1\n")))
    else none, py "A", [0, 1, 0, 1], by decide +kernel, ?_⟩
  intro order h1 h2
  rw [order_twice h1] at h2
  have h3 := congrFun h2 (py "A")
  revert h3
  decide +kernel

/-- C239 for runs on different files, however their texts are divided: when all have ended, the files are
as after the runs one after the other, in any order, and each run has ended as it would have alone. -/
theorem C239_apart_partial (disk : Disk) (n : Nat) (files : List Str)
    (cut : Nat → List Effect → List (List Effect)) (schedule : List Nat)
    (hcut : ∀ i es, (cut i es).flatten = es) (hnd : files.Nodup)
    (hend : ((ParallelPages.begin disk files).run cut n schedule).Ended) :
    (∀ order, order.Perm files →
      ((ParallelPages.begin disk files).run cut n schedule).disk = serialPages n disk order) ∧
    ((ParallelPages.begin disk files).run cut n schedule).runs.map (·.stop) =
      files.map fun f => match (genpagesD disk n [f]).2 with
        | .ok _ => none
        | .error e => some e := by
  have h := pages_keeps cut n (ApartInv disk n files) (fun s i => apart_step hcut hnd s i) schedule _
    (apart_begin disk n files)
  generalize (ParallelPages.begin disk files).run cut n schedule = s at *
  constructor
  · intro order hp
    funext g
    rw [serial_apart (disk := disk) g order disk (hp.nodup_iff.2 hnd) (fun _ _ => rfl)]
    by_cases hg : g ∈ order
    · rw [if_pos hg]
      have hg' := hp.mem_iff.1 hg
      rw [← h.same] at hg'
      obtain ⟨r, hr, rfl⟩ := List.mem_map.1 hg'
      obtain ⟨i, hi, rfl⟩ := List.mem_iff_getElem.1 hr
      obtain ⟨-, w, hw, hd⟩ := h.read i _ [] (List.getElem?_eq_getElem hi) (hend _ hr)
      rw [List.flatten_nil, List.append_nil] at hw
      rw [hd, hw]
    · rw [if_neg hg]
      exact h.others g (fun hm => hg (hp.mem_iff.2 hm))
  · rw [← h.same, List.map_map]
    apply List.map_congr_left
    intro r hr
    obtain ⟨i, hi, rfl⟩ := List.mem_iff_getElem.1 hr
    obtain ⟨hst, -⟩ := h.read i _ [] (List.getElem?_eq_getElem hi) (hend _ hr)
    rw [hst]
    simp only [Function.comp, pagesStop]
    rw [(C223_finished disk n [_]).2]

/-- C239 for runs that append their texts in one piece each, on files that have a log card, or on which
genpages fails; several runs may have the same file: when all have ended, the files are as after the runs
one after the other, in any order, and each run has ended as it would have alone. -/
theorem C239_whole_partial (disk : Disk) (n : Nat) (files : List Str) (schedule : List Nat)
    (hset : ∀ f ∈ files, (∃ e, (genpagesD disk n [f]).2 = .error e) ∨
      ∃ s, disk f = some (.file (encoded s)) ∧ ∃ l ∈ readlines (universal s), l.head? = some 'L')
    (hend : ((ParallelPages.begin disk files).run (fun _ es => [es]) n schedule).Ended) :
    (∀ order, order.Perm files →
      ((ParallelPages.begin disk files).run (fun _ es => [es]) n schedule).disk =
        serialPages n disk order) ∧
    ((ParallelPages.begin disk files).run (fun _ es => [es]) n schedule).runs.map (·.stop) =
      files.map fun f => match (genpagesD disk n [f]).2 with
        | .ok _ => none
        | .error e => some e := by
  have hset' : ∀ f ∈ files, Settled disk n f := by
    intro f hf
    rcases hset f hf with ⟨e, he⟩ | hl
    · rw [(C223_finished disk n [f]).2] at he
      exact Or.inl ⟨e, he⟩
    · exact Or.inr hl
  have h := pages_keeps (fun _ es => [es]) n (WholeInv disk n files)
    (fun s i => whole_step (fun _ _ => rfl) hset' s i) schedule _ (whole_begin disk n files)
  generalize (ParallelPages.begin disk files).run (fun _ es => [es]) n schedule = s at *
  constructor
  · intro order hp
    funext g
    rw [serial_whole g order disk (fun _ => 0) (fun f hf => hset' f (hp.mem_iff.1 hf)) (fun _ => rfl),
      h.grown g, ended_all h.same hend, hp.count_eq, Nat.zero_add]
  · rw [← h.same, List.map_map]
    apply List.map_congr_left
    intro r hr
    obtain ⟨i, hi, rfl⟩ := List.mem_iff_getElem.1 hr
    rcases h.each i _ (List.getElem?_eq_getElem hi) with h0 | ⟨-, hst⟩
    · rw [hend _ hr] at h0; cases h0
    · rw [hst]
      simp only [Function.comp, pagesStop]
      rw [(C223_finished disk n [_]).2]

/-- A file with something appended; anything else as it is. -/
def Longened (a b : Option Node) : Prop :=
  match a with
  | some (.file bytes) => ∃ more, b = some (.file (bytes ++ more))
  | node => b = node

theorem longened_refl (a : Option Node) : Longened a a := by
  unfold Longened
  split
  · exact ⟨[], by simp⟩
  · rfl

theorem longened_append {a : Option Node} {d : Disk} {g : Str} {e : Effect} {f : Str} {b : UInt8}
    (he : e = .append f b) (h : Longened a (d g)) : Longened a (e.run d g) := by
  subst he
  unfold Longened at *
  simp only [Effect.run]
  by_cases hg : g = f
  · rw [if_pos hg]
    split at h
    · obtain ⟨more, hm⟩ := h
      rw [hm]
      exact ⟨more ++ [b], by simp⟩
    · rename_i hx
      rw [h]
      split
      · rename_i bytes
        exact absurd rfl (hx bytes)
      · rfl
  · rw [if_neg hg]; exact h

theorem longened_appends {a : Option Node} {g f : Str} (es : List Effect) : ∀ d : Disk,
    (∀ e ∈ es, ∃ b, e = .append f b) → Longened a (d g) → Longened a (es.foldl Effect.run d g) := by
  induction es with
  | nil => intro d _ h; exact h
  | cons e es ih =>
    intro d hes h
    obtain ⟨b, hb⟩ := hes e List.mem_cons_self
    exact ih _ (fun e he => hes e (List.mem_cons_of_mem _ he)) (longened_append hb h)

theorem genpagesE_appends (d : Disk) (n : Nat) (f : Str) :
    ∀ e ∈ (genpagesE d n [f]).1, ∃ b, e = .append f b := by
  rcases pages_run n d f with ⟨e, h, -⟩ | ⟨s, sec, col8, start, end_, -, -, -, h, -⟩
  · rw [h]; simp
  · rw [h]
    intro e he
    simp only [List.mem_map] at he
    obtain ⟨b, -, rfl⟩ := he
    exact ⟨b, rfl⟩

/-- What holds after all steps of any runs. -/
def KeptInv (disk : Disk) (files : List Str) (s : ParallelPages) : Prop :=
  (∀ g, Longened (disk g) (s.disk g)) ∧ (∀ g, g ∉ files → s.disk g = disk g) ∧
    ∀ (i : Nat) (r : PageRun), s.runs[i]? = some r →
      r.file ∈ files ∧ ∀ ps, r.pending = some ps → ∀ p ∈ ps, ∀ e ∈ p, ∃ b, e = .append r.file b

/-- C239, at any moment of any runs: each file given still begins with what was in it, nothing else has
changed. -/
theorem C239_kept_partial (disk : Disk) (n : Nat) (files : List Str)
    (cut : Nat → List Effect → List (List Effect)) (schedule : List Nat)
    (hcut : ∀ i es, (cut i es).flatten = es) :
    (∀ g, g ∉ files → ((ParallelPages.begin disk files).run cut n schedule).disk g = disk g) ∧
    (∀ g bytes, disk g = some (.file bytes) → ∃ more,
      ((ParallelPages.begin disk files).run cut n schedule).disk g = some (.file (bytes ++ more))) ∧
    (∀ g, (∀ bytes, disk g ≠ some (.file bytes)) →
      ((ParallelPages.begin disk files).run cut n schedule).disk g = disk g) := by
  have h : KeptInv disk files ((ParallelPages.begin disk files).run cut n schedule) := by
    apply pages_keeps cut n (KeptInv disk files)
    rotate_left
    · refine ⟨fun g => longened_refl _, fun g _ => rfl, ?_⟩
      intro i r h
      simp only [ParallelPages.begin, List.getElem?_map, Option.map_eq_some_iff] at h
      obtain ⟨f, hf, rfl⟩ := h
      exact ⟨List.mem_of_getElem? hf, fun ps hps => by cases hps⟩
    · rintro s i ⟨h1, h2, h3⟩
      have hruns : ∀ (r r' : PageRun), s.runs[i]? = some r → r'.file = r.file →
          (∀ ps, r'.pending = some ps → ∀ p ∈ ps, ∀ e ∈ p, ∃ b, e = .append r.file b) →
          ∀ (j : Nat) (x : PageRun), (s.runs.set i r')[j]? = some x →
            x.file ∈ files ∧ ∀ ps, x.pending = some ps → ∀ p ∈ ps, ∀ e ∈ p, ∃ b, e = .append x.file b := by
        intro r r' hr hf hp j x hj
        by_cases hij : i = j
        · subst hij
          rw [List.getElem?_set_self (List.getElem?_eq_some_iff.1 hr).1] at hj
          cases hj
          rw [hf]
          exact ⟨(h3 i r hr).1, hp⟩
        · rw [List.getElem?_set_ne hij] at hj
          exact h3 j x hj
      rcases pages_step_cases cut n s i with hs | ⟨f, st, e, hr, he, hnil, hs⟩ | ⟨f, st, hr, hok, hs⟩ |
        ⟨f, p, ps, st, hr, hs⟩
      · rw [hs]; exact ⟨h1, h2, h3⟩
      · rw [hs]
        refine ⟨h1, h2, hruns _ _ hr rfl ?_⟩
        intro ps hps
        cases hps
        simp
      · rw [hs]
        refine ⟨h1, h2, hruns _ _ hr rfl ?_⟩
        intro ps hps p hp e he
        cases hps
        apply genpagesE_appends s.disk n f
        rw [← hcut i (genpagesE s.disk n [f]).1]
        exact List.mem_flatten.2 ⟨p, hp, he⟩
      · rw [hs]
        obtain ⟨hf, hall⟩ := h3 i _ hr
        have hp := hall _ rfl p List.mem_cons_self
        refine ⟨fun g => longened_appends p s.disk hp (h1 g), ?_, hruns _ _ hr rfl ?_⟩
        · intro g hg
          show p.foldl Effect.run s.disk g = disk g
          rw [runs_other]
          · exact h2 g hg
          · intro e he
            obtain ⟨b, rfl⟩ := hp e he
            exact fun e => hg (e ▸ hf)
        · intro qs hqs q hq
          cases hqs
          exact hall _ rfl q (List.mem_cons_of_mem _ hq)
  obtain ⟨h1, h2, -⟩ := h
  refine ⟨h2, ?_, ?_⟩
  · intro g bytes hg
    have := h1 g
    rw [hg] at this
    exact this
  · intro g hg
    have := h1 g
    unfold Longened at this
    split at this
    · rename_i bytes hb; exact absurd hb (hg bytes)
    · exact this

/-- Two runs on the same file, with log card, and one on a file that is not there. -/
example : (∀ f ∈ [py "A.arg", py "B.arg", py "A.arg"], (∃ e, (genpagesD crashLog 1 [f]).2 = .error e) ∨
      ∃ s, crashLog f = some (.file (encoded s)) ∧
        ∃ l ∈ readlines (universal s), l.head? = some 'L') ∧
    ((ParallelPages.begin crashLog [py "A.arg", py "B.arg", py "A.arg"]).run (fun _ es => [es]) 1
      [0, 2, 1, 2, 0]).Ended := by
  refine ⟨?_, by decide +kernel⟩
  have hA : ∃ s, crashLog (py "A.arg") = some (.file (encoded s)) ∧
      ∃ l ∈ readlines (universal s), l.head? = some 'L' := ⟨pagesText, rfl, by decide +kernel⟩
  have hB : (genpagesD crashLog 1 [py "B.arg"]).2 = .error (.raised .systemExit) := by decide +kernel
  intro f hf
  simp only [List.mem_cons, List.not_mem_nil, or_false] at hf
  rcases hf with rfl | rfl | rfl
  · exact Or.inr hA
  · exact Or.inl ⟨_, hB⟩
  · exact Or.inr hA

/-- Two runs on different files, in pieces of any size. -/
example : let disk : Disk := fun f => if f = py "B" then crashLog (py "A.arg") else crashLog f
    [py "A.arg", py "B"].Nodup ∧ ((ParallelPages.begin disk [py "A.arg", py "B"]).run
      (fun i es => [es.take (10 + i), es.drop (10 + i)]) 1 [0, 1, 0, 1, 1, 0]).Ended := by
  refine ⟨by decide +kernel, by decide +kernel⟩

end H800
