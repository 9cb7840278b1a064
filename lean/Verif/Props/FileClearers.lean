import Verif.Spec.FileClearers
import Verif.Props.Clearers

/-!
C248: threads that clear one register file at the same time.
-/

namespace H800

open Spec

theorem FileClearers.run_cons (s : FileClearers) (i : Nat) (l : List Nat) :
    s.run (i :: l) = (s.step i).run l := rfl

theorem FileClearers.run_append (s : FileClearers) (k l : List Nat) :
    s.run (k ++ l) = (s.run k).run l := List.foldl_append ..

/-- **C248** Threads that clear a register file at the same time clear it: when all calls have returned, all
registers of all groups are zero. False: see `C248_refuted`. -/
def C248_statement : Prop :=
  ∀ (f : Registers) (n : Nat) (schedule : List Nat), FullFile f → AtBegin f → 0 < n →
    (∀ t ∈ ((FileClearers.start f n).run schedule).threads, t = .ended) →
    ∀ a x, InFile f a → ((FileClearers.start f n).run schedule).file.heap[a]? = some x → x.value = 0

/-! What any schedule leaves. -/

/-- A register that a thread is about to clear belongs to the file. -/
def SureFile (f : Registers) : FileClearing → Prop
  | .within g t => (∃ k : Int, dget f.slots k = some g) ∧
      ∀ r, t = .got r → ∃ grp, f.groups[g]? = some grp ∧ ∃ j : Int, dget grp.regs (.num j) = some r
  | .failed e => e = .keyError ∨ e = .attributeError
  | _ => True

/-- What holds after any steps of threads that clear a file. -/
def FileClearInv (f : Registers) (n : Nat) (s : FileClearers) : Prop :=
  s.file.slots = f.slots ∧ s.threads.length = n ∧
  (∀ g : Nat, (s.file.groups[g]?).map RegisterGroup.regs = (f.groups[g]?).map RegisterGroup.regs) ∧
  (∀ t ∈ s.threads, SureFile f t) ∧
  ∀ a : Nat, s.file.heap[a]? = f.heap[a]? ∨ s.file.heap[a]? = f.heap[a]?.map Register.clear ∧ InFile f a

theorem fileClearInv_set {f : Registers} {n : Nat} {s : FileClearers} (h : FileClearInv f n s) (i c : Nat)
    {t : FileClearing} (ht : SureFile f t) :
    FileClearInv f n ⟨{ s.file with current := c }, s.threads.set i t⟩ := by
  obtain ⟨h1, h2, h3, h4, h5⟩ := h
  refine ⟨h1, by simpa using h2, h3, fun u hu => ?_, h5⟩
  rcases mem_set_cases hu with rfl | hu
  · exact ht
  · exact h4 u hu

/-- A step within `clear` of a group: the registers of the group stay, and those of the store are as they were,
but for one that the thread had got. -/
theorem clearers_one (heap : List Register) (grp : RegisterGroup) (t : Clearing) :
    ∃ heap' grp' t', Clearers.step ⟨heap, grp, [t]⟩ 0 = ⟨heap', grp', [t']⟩ ∧ grp'.regs = grp.regs ∧
    (heap' = heap ∨ ∃ r, t = .got r ∧ heap' = RegisterGroup.upd heap r Register.clear) ∧
    (∀ r, t' = .got r → t = .got r ∨ ∃ j : Int, dget grp.regs (.num j) = some r) ∧
    ∀ e, t' = .failed e → t = .failed e ∨ e = .keyError := by
  unfold Clearers.step
  cases t with
  | before =>
    dsimp only [List.getElem?_cons_zero]
    split
    · exact ⟨_, _, _, rfl, rfl, .inl rfl, by simp, by simp⟩
    · exact ⟨_, _, _, rfl, rfl, .inl rfl, by simp, by simp⟩
  | passed => exact ⟨_, _, _, rfl, rfl, .inl rfl, by simp, by simp⟩
  | read c => exact ⟨_, _, _, rfl, rfl, .inl rfl, by simp, by simp⟩
  | moved =>
    dsimp only [List.getElem?_cons_zero]
    unfold dgetE
    cases hd : dget grp.regs (.num ((grp.current : Int) - 1)) with
    | none => exact ⟨_, _, _, rfl, rfl, .inl rfl, by simp, by simp⟩
    | some r =>
      refine ⟨_, _, _, rfl, rfl, .inl rfl, fun r' hr => ?_, by simp⟩
      cases hr
      exact .inr ⟨_, hd⟩
  | got r => exact ⟨_, _, _, rfl, rfl, .inr ⟨r, rfl, rfl⟩, by simp, by simp⟩
  | ended => exact ⟨_, _, _, rfl, rfl, .inl rfl, by simp, by simp⟩
  | failed e => exact ⟨_, _, _, rfl, rfl, .inl rfl, by simp, fun e' he => .inl he⟩

theorem fileClearInv_step {f : Registers} {n : Nat} {s : FileClearers} (h : FileClearInv f n s)
    (hf : ∀ g e, FileClearing.within g (.failed e) ∉ s.threads) (i : Nat) :
    FileClearInv f n (s.step i) ∧ ∀ g e, FileClearing.within g (.failed e) ∉ (s.step i).threads := by
  have out : ∀ {t : FileClearing}, (∀ g e, t ≠ .within g (.failed e)) →
      ∀ g e, FileClearing.within g (.failed e) ∉ s.threads.set i t := by
    intro t ht g e hm
    rcases mem_set_cases hm with hm | hm
    · exact ht g e hm.symm
    · exact hf g e hm
  unfold FileClearers.step
  split
  · exact ⟨h, hf⟩
  · split
    · exact ⟨fileClearInv_set h i s.file.current (t := .ended) trivial, out (by simp)⟩
    · exact ⟨fileClearInv_set h i s.file.current (t := .passed) trivial, out (by simp)⟩
  · exact ⟨fileClearInv_set h i s.file.current (t := .read _) trivial, out (by simp)⟩
  · next c _ => exact ⟨fileClearInv_set h i (c + 1) (t := .moved) trivial, out (by simp)⟩
  · unfold dgetE
    cases hd : dget s.file.slots ((s.file.current : Int) - 1) with
    | none => exact ⟨fileClearInv_set h i s.file.current (t := .failed .keyError) (.inl rfl), out (by simp)⟩
    | some g =>
      refine ⟨fileClearInv_set h i s.file.current (t := .within g .before)
        ⟨⟨(s.file.current : Int) - 1, h.1 ▸ hd⟩, by simp⟩, out (by simp)⟩
  · next g t hs =>
    have ht := h.2.2.2.1 _ (List.mem_of_getElem? hs)
    cases hg : s.file.groups[g]? with
    | none =>
      exact ⟨fileClearInv_set h i s.file.current (t := .failed .attributeError) (.inr rfl), out (by simp)⟩
    | some grp =>
      obtain ⟨heap', grp', t', e, e1, e2, e3, e4⟩ := clearers_one s.file.heap grp t
      dsimp only
      rw [e]
      obtain ⟨h1, h2, h3, h4, h5⟩ := h
      obtain ⟨⟨k, hk⟩, hr⟩ := ht
      obtain ⟨grp0, hg0, hregs⟩ : ∃ grp0, f.groups[g]? = some grp0 ∧ grp0.regs = grp.regs := by
        have := h3 g
        rw [hg] at this
        cases h0 : f.groups[g]? with
        | none => rw [h0] at this; cases this
        | some g0 => rw [h0] at this; exact ⟨g0, rfl, (Option.some.inj this).symm⟩
      have hsure : SureFile f (.after g t') := by
        unfold FileClearing.after
        split
        · trivial
        · next e' =>
          rcases e4 e' rfl with h | h
          · exact absurd (h ▸ List.mem_of_getElem? hs) (hf g e')
          · exact .inl h
        · refine ⟨⟨k, hk⟩, fun r hr' => ?_⟩
          rcases e3 r hr' with h | ⟨j, hj⟩
          · exact hr r h
          · exact ⟨grp0, hg0, j, hregs ▸ hj⟩
      refine ⟨⟨h1, by simpa using h2, fun g' => ?_, fun u hu => ?_, fun a => ?_⟩, out ?_⟩
      · rw [← h3 g']
        dsimp only
        rw [List.getElem?_set]
        split
        · next hgg =>
          subst hgg
          rw [hg, if_pos (List.getElem?_eq_some_iff.1 hg).1]
          simp [e1]
        · rfl
      · rcases mem_set_cases hu with rfl | hu
        · exact hsure
        · exact h4 u hu
      · dsimp only
        rcases e2 with e2 | ⟨r, hr', e2⟩
        · rw [e2]; exact h5 a
        · rw [e2, upd_clear_get]
          split
          · next har =>
            subst har
            obtain ⟨grp1, hg1, j, hj⟩ := hr a hr'
            refine .inr ⟨?_, k, g, grp1, j, hk, hg1, hj⟩
            rcases h5 a with h | ⟨h, _⟩
            · rw [h]
            · rw [h]
              cases f.heap[a]? <;> rfl
          · exact h5 a
      · intro g' e' he
        dsimp only [List.headD] at he
        unfold FileClearing.after at he
        split at he
        · cases he
        · cases he
        · next hn => cases he; exact hn _ rfl
  · exact ⟨h, hf⟩
  · exact ⟨h, hf⟩

theorem fileClearInv_run {f : Registers} {n : Nat} (schedule : List Nat) : ∀ {s : FileClearers},
    FileClearInv f n s → (∀ g e, FileClearing.within g (.failed e) ∉ s.threads) →
    FileClearInv f n (s.run schedule) := by
  induction schedule with
  | nil => exact fun h _ => h
  | cons i l ih => exact fun h hf => ih (fileClearInv_step h hf i).1 (fileClearInv_step h hf i).2

/-- What is left of C248 for any schedule, at any time: a register of the store is as it was, or cleared, which
only those of the file can be; the file has the groups and the groups have the registers they had, and no
exceptions but KeyError and AttributeError are raised. -/
theorem C248_others_partial (f : Registers) (n : Nat) (schedule : List Nat) :
    (∀ a : Nat, ((FileClearers.start f n).run schedule).file.heap[a]? = f.heap[a]? ∨
      ((FileClearers.start f n).run schedule).file.heap[a]? = f.heap[a]?.map Register.clear ∧
      InFile f a) ∧
    ((FileClearers.start f n).run schedule).file.slots = f.slots ∧
    (∀ g : Nat, (((FileClearers.start f n).run schedule).file.groups[g]?).map RegisterGroup.regs =
      (f.groups[g]?).map RegisterGroup.regs) ∧
    ∀ e, FileClearing.failed e ∈ ((FileClearers.start f n).run schedule).threads →
      e = .keyError ∨ e = .attributeError := by
  have h0 : FileClearInv f n (FileClearers.start f n) :=
    ⟨rfl, by simp [FileClearers.start], fun _ => rfl, fun t ht => by
      rw [List.eq_of_mem_replicate ht]; trivial, fun _ => .inl rfl⟩
  obtain ⟨h1, _, h3, h4, h5⟩ := fileClearInv_run schedule h0 (fun g e hm => by
    cases List.eq_of_mem_replicate hm)
  exact ⟨h5, h1, h3, fun e he => h4 _ he⟩

/-! A call that no other thread comes into. -/

theorem clearers_over (heap : List Register) (grp : RegisterGroup) {t : Clearing} (ht : CallOver t)
    (k : Nat) : Clearers.run ⟨heap, grp, [t]⟩ (List.replicate k 0) = ⟨heap, grp, [t]⟩ := by
  induction k with
  | zero => rfl
  | succ k ih =>
    rw [List.replicate_succ, Clearers.run_cons]
    have : Clearers.step ⟨heap, grp, [t]⟩ 0 = ⟨heap, grp, [t]⟩ := by
      cases t <;> first | rfl | exact absurd ht id
    rw [this]
    exact ih

theorem file_lift {g i : Nat} (k : Nat) : ∀ {s : FileClearers} {t : Clearing} {grp grp' : RegisterGroup}
    {heap' : List Register}, s.threads[i]? = some (.within g t) → ¬ CallOver t →
    s.file.groups[g]? = some grp →
    Clearers.run ⟨s.file.heap, grp, [t]⟩ (List.replicate k 0) = ⟨heap', grp', [.ended]⟩ →
    ∃ k', s.run (List.replicate k' i) =
      ⟨{ s.file with heap := heap', groups := s.file.groups.set g grp' }, s.threads.set i .before⟩ := by
  induction k with
  | zero =>
    intro s t grp grp' heap' _ ht _ hr
    simp only [List.replicate_zero, Clearers.run, List.foldl_nil, Clearers.mk.injEq, List.cons.injEq,
      and_true] at hr
    rw [hr.2.2] at ht
    exact absurd trivial ht
  | succ k ih =>
    intro s t grp grp' heap' hs ht hg hr
    rw [List.replicate_succ, Clearers.run_cons] at hr
    obtain ⟨h1, g1, t1, e, -, -, -, -⟩ := clearers_one s.file.heap grp t
    rw [e] at hr
    have hstep : s.step i = ⟨{ s.file with heap := h1, groups := s.file.groups.set g g1 },
        s.threads.set i (.after g t1)⟩ := by
      unfold FileClearers.step
      rw [hs]
      dsimp only
      rw [hg]
      dsimp only
      rw [e]
      rfl
    have hi := (List.getElem?_eq_some_iff.1 hs).1
    have hgl := (List.getElem?_eq_some_iff.1 hg).1
    by_cases ho : CallOver t1
    · rw [clearers_over _ _ ho] at hr
      simp only [Clearers.mk.injEq, List.cons.injEq, and_true] at hr
      obtain ⟨rfl, rfl, rfl⟩ := hr
      exact ⟨1, hstep⟩
    · have ha : FileClearing.after g t1 = .within g t1 := by
        cases t1 <;> first | rfl | exact absurd trivial ho
      rw [ha] at hstep
      obtain ⟨k', hk⟩ := ih (s := s.step i) (t := t1) (grp := g1) (by rw [hstep]; simp [hi]) ho
        (by rw [hstep]; simp [hgl]) (by rw [hstep]; exact hr)
      refine ⟨k' + 1, ?_⟩
      rw [List.replicate_succ, FileClearers.run_cons, hk, hstep]
      simp [List.set_set]

theorem file_clear_loop {i : Nat} (fuel : Nat) : ∀ {s : FileClearers}, s.threads[i]? = some .before →
    FullFile s.file → 9 ≤ s.file.current + fuel → ∃ k, s.run (List.replicate k i) =
      ⟨(Registers.clearLoop fuel s.file).1, s.threads.set i .ended⟩ ∧
      (Registers.clearLoop fuel s.file).2 = .ok () := by
  have last : ∀ {s : FileClearers}, s.threads[i]? = some .before → 8 ≤ s.file.current →
      s.run (List.replicate 1 i) = ⟨s.file, s.threads.set i .ended⟩ := by
    intro s hs hc
    show s.step i = _
    unfold FileClearers.step
    rw [hs]
    dsimp only
    rw [if_pos (show s.file.current ≥ Registers.NUM_GROUPS from hc)]
  induction fuel with
  | zero => exact fun hs _ hc => ⟨1, last hs (by omega), rfl⟩
  | succ fuel ih =>
    intro s hs hf hc
    by_cases h8 : 8 ≤ s.file.current
    · refine ⟨1, ?_, ?_⟩
      · rw [last hs h8]
        unfold Registers.clearLoop Registers.next
        rw [if_pos (show s.file.current ≥ Registers.NUM_GROUPS from h8)]
      · unfold Registers.clearLoop Registers.next
        rw [if_pos (show s.file.current ≥ Registers.NUM_GROUPS from h8)]
    · have hi := (List.getElem?_eq_some_iff.1 hs).1
      obtain ⟨g, grp, hd, hg, hfull⟩ := hf s.file.current (by omega)
      have hfour : s.run [i, i, i, i] = ⟨{ s.file with current := s.file.current + 1 },
          s.threads.set i (.within g .before)⟩ := by
        obtain ⟨f, ts⟩ := s
        dsimp only at hs hd hi h8 ⊢
        have hn : ¬ f.current ≥ Registers.NUM_GROUPS := h8
        have e1 : FileClearers.step ⟨f, ts⟩ i = ⟨f, ts.set i .passed⟩ := by
          unfold FileClearers.step
          simp only [hs, if_neg hn]
        have e2 : FileClearers.step ⟨f, ts.set i .passed⟩ i = ⟨f, ts.set i (.read f.current)⟩ := by
          unfold FileClearers.step
          simp [hi, List.set_set]
        have e3 : FileClearers.step ⟨f, ts.set i (.read f.current)⟩ i =
            ⟨{ f with current := f.current + 1 }, ts.set i .moved⟩ := by
          unfold FileClearers.step
          simp [hi, List.set_set]
        have e4 : FileClearers.step ⟨{ f with current := f.current + 1 }, ts.set i .moved⟩ i =
            ⟨{ f with current := f.current + 1 }, ts.set i (.within g .before)⟩ := by
          have hz : ((f.current + 1 : Nat) : Int) - 1 = f.current := by omega
          unfold FileClearers.step dgetE
          simp only [hi, List.getElem?_set_self, hz, hd, List.set_set]
        show FileClearers.step (FileClearers.step (FileClearers.step (FileClearers.step _ i) i) i) i = _
        rw [e1, e2, e3, e4]
      obtain ⟨k, hk, hok⟩ := C245_alone ⟨s.file.heap, grp, [.before]⟩ 0 rfl hfull
      obtain ⟨k', hk'⟩ := file_lift (i := i) (g := g) k (s := s.run [i, i, i, i]) (t := .before)
        (grp := grp) (by rw [hfour]; simp [hi]) id (by rw [hfour]; exact hg) (by rw [hfour]; exact hk)
      have hinv := clearersInv_run (List.replicate k 0) (clearersInv_start s.file.heap grp 1)
      rw [show Clearers.start s.file.heap grp 1 = ⟨s.file.heap, grp, [.before]⟩ from rfl, hk] at hinv
      obtain ⟨hregs, -, -, -, -, -, -, -, hheap⟩ := hinv
      dsimp only at hregs hheap hk' hok
      rw [hfour] at hk'
      dsimp only at hk'
      have hlen : ∀ r, r < s.file.heap.length →
          r < (RegisterGroup.clear s.file.heap grp).1.length := by
        intro r hr
        by_contra hn
        have h0 := List.getElem?_eq_none (Nat.le_of_not_lt hn)
        have h1 := List.getElem?_eq_getElem hr
        rcases hheap r with h | ⟨h, -⟩ <;> rw [h0, h1] at h <;> cases h
      have hgl := (List.getElem?_eq_some_iff.1 hg).1
      have hcl : Registers.clearLoop (fuel + 1) s.file = Registers.clearLoop fuel
          ⟨(RegisterGroup.clear s.file.heap grp).1,
            s.file.groups.set g (RegisterGroup.clear s.file.heap grp).2.1, s.file.slots,
            s.file.current + 1⟩ := by
        conv_lhs => unfold Registers.clearLoop Registers.next dgetE
        rw [if_neg (show ¬ s.file.current ≥ Registers.NUM_GROUPS from h8)]
        dsimp only
        rw [hd]
        dsimp only
        unfold Registers.clearGroupRef
        dsimp only
        rw [hg]
        dsimp only
        rw [hok]
      have hfull' : FullFile ⟨(RegisterGroup.clear s.file.heap grp).1,
            s.file.groups.set g (RegisterGroup.clear s.file.heap grp).2.1, s.file.slots,
            s.file.current + 1⟩ := by
        intro j hj
        obtain ⟨g2, grp2, a1, a2, a3⟩ := hf j hj
        by_cases hgg : g = g2
        · subst hgg
          refine ⟨g, _, a1, List.getElem?_set_self hgl, fun m hm => ?_⟩
          obtain ⟨r, b1, b2⟩ := hfull m hm
          exact ⟨r, hregs ▸ b1, hlen r b2⟩
        · refine ⟨g2, grp2, a1, (List.getElem?_set_ne hgg).trans a2, fun m hm => ?_⟩
          obtain ⟨r, b1, b2⟩ := a3 m hm
          exact ⟨r, b1, hlen r b2⟩
      obtain ⟨k2, hk2, hok2⟩ := ih (s := ⟨_, s.threads.set i .before⟩)
        (List.getElem?_set_self hi) hfull' (by dsimp only; omega)
      refine ⟨4 + (k' + k2), ?_, by rw [hcl]; exact hok2⟩
      rw [List.replicate_add, FileClearers.run_append, List.replicate_add, FileClearers.run_append,
        show List.replicate 4 i = [i, i, i, i] from rfl, hfour, hk']
      simp only [List.set_set] at hk2 ⊢
      rw [hk2, hcl]

/-- A call that no step of another thread comes into is that of `Registers.clear`. -/
theorem C248_alone (s : FileClearers) (i : Nat) (h : s.threads[i]? = some .before)
    (hf : FullFile s.file) : ∃ k,
    s.run (List.replicate k i) = ⟨s.file.clear.1, s.threads.set i .ended⟩ ∧ s.file.clear.2 = .ok () :=
  file_clear_loop 9 h hf (by omega)

/-! Threads that take turns. -/

/-- The thread as one that clears group `g`. -/
def viewOf (g : Nat) : FileClearing → Clearing
  | .within g' t => if g' = g then t else .before
  | _ => .before

theorem viewOf_within (g : Nat) (t : Clearing) : viewOf g (.within g t) = t := if_pos rfl

theorem viewOf_next {g : Nat} {t : FileClearing} (h : WithinNext (viewOf g t)) : WithinFileNext t := by
  cases t with
  | within g' t =>
    by_cases e : g' = g
    · rw [show viewOf g (.within g' t) = t from if_pos e] at h
      exact h
    · rw [show viewOf g (.within g' t) = .before from if_neg e] at h
      exact h.elim
  | _ => exact h.elim

theorem map_set_same {α β : Type} (v : α → β) {l : List α} {i : Nat} {x y : α} (h : l[i]? = some y)
    (e : v x = v y) : (l.set i x).map v = l.map v := by
  rw [List.map_set, e]
  apply List.ext_getElem?
  intro j
  rw [List.getElem?_set]
  split
  · next hj =>
    subst hj
    rw [List.getElem?_map, h]
    simp [(List.getElem?_eq_some_iff.1 h).1]
  · rfl

theorem mem_set_swap {α : Type} {l : List α} {i : Nat} {a b y : α} (h : y ∈ l.set i a) (hy : y ≠ a) :
    y ∈ l.set i b := by
  obtain ⟨j, hj⟩ := List.mem_iff_getElem?.1 h
  by_cases e : i = j
  · subst e
    rw [List.getElem?_set] at hj
    simp only [if_true] at hj
    split at hj
    · exact absurd (Option.some.inj hj).symm hy
    · cases hj
  · exact List.mem_iff_getElem?.2 ⟨j, by rw [List.getElem?_set_ne e] at hj ⊢; exact hj⟩

theorem mem_set_here {α : Type} {l : List α} {i : Nat} {x : α} (h : i < l.length) : x ∈ l.set i x :=
  List.mem_iff_getElem?.2 ⟨i, List.getElem?_set_self h⟩

theorem clearTurn_relax {heap h : List Register} {g grp : RegisterGroup} {ts : List Clearing} {i : Nat}
    (hi : ClearTurnInv heap g ⟨h, grp, ts.set i .ended⟩) :
    ClearTurnInv heap g ⟨h, grp, ts.set i .before⟩ := by
  obtain ⟨h1, h2, h3, h4, h5, h6, h7, h8, h9⟩ := hi
  refine ⟨h1, h2, h3, fun m => h4 (mem_set_swap m (by simp)), fun c m => h5 c (mem_set_swap m (by simp)),
    fun m => h6 (mem_set_swap m (by simp)), fun e m => h7 e (mem_set_swap m (by simp)),
    fun m => h8 (mem_set_swap m (by simp)), fun k a b => ?_⟩
  rcases h9 k a b with h | ⟨r, hr, hd⟩ | ⟨m, hk⟩
  · exact .inl h
  · exact .inr (.inl ⟨r, mem_set_swap hr (by simp), hd⟩)
  · exact .inr (.inr ⟨mem_set_swap m (by simp), hk⟩)

theorem clearTurn_upd {heap h : List Register} {g grp : RegisterGroup} {ts : List Clearing}
    (hi : ClearTurnInv heap g ⟨h, grp, ts⟩) (r : Nat) :
    ClearTurnInv heap g ⟨RegisterGroup.upd h r Register.clear, grp, ts⟩ := by
  obtain ⟨h1, h2, h3, h4, h5, h6, h7, h8, h9⟩ := hi
  refine ⟨h1, (upd_length _ _).trans h2, h3, h4, h5, h6, h7, h8, fun k a b => ?_⟩
  rcases h9 k a b with h | h
  · exact .inl (zeroed_upd h r)
  · exact .inr h

/-- A step of one thread among others is one alone. -/
theorem clearers_among {heap heap' : List Register} {grp grp' : RegisterGroup} {t t' : Clearing}
    {ts : List Clearing} {i : Nat} (h : ts[i]? = some t)
    (e : Clearers.step ⟨heap, grp, [t]⟩ 0 = ⟨heap', grp', [t']⟩) :
    Clearers.step ⟨heap, grp, ts⟩ i = ⟨heap', grp', ts.set i t'⟩ := by
  have hset : ts.set i t = ts := by
    have := map_set_same id h (rfl : id t = id t)
    simpa using this
  unfold Clearers.step at e ⊢
  dsimp only at e ⊢
  rw [h]
  simp only [List.getElem?_cons_zero] at e
  cases t with
  | before =>
    dsimp only at e ⊢
    split at e <;> next hc =>
      first
      | rw [if_pos hc]
      | rw [if_neg hc]
      simp only [List.set_cons_zero, Clearers.mk.injEq, List.cons.injEq, and_true] at e
      obtain ⟨rfl, rfl, rfl⟩ := e
      rfl
  | moved =>
    dsimp only at e ⊢
    split at e <;>
    · simp only [List.set_cons_zero, Clearers.mk.injEq, List.cons.injEq, and_true] at e
      obtain ⟨rfl, rfl, rfl⟩ := e
      rfl
  | _ =>
    simp only [List.set_cons_zero, Clearers.mk.injEq, List.cons.injEq, and_true] at e
    obtain ⟨rfl, rfl, rfl⟩ := e
    first
    | rfl
    | rw [hset]

/-- What holds while no thread makes a step within another one's call of `next`. -/
def FileTurnInv (f : Registers) (s : FileClearers) : Prop :=
  s.file.slots = f.slots ∧ s.file.current ≤ 8 ∧
  (FileClearing.passed ∈ s.threads → s.file.current < 8) ∧
  (∀ c, FileClearing.read c ∈ s.threads → c = s.file.current ∧ s.file.current < 8) ∧
  (FileClearing.moved ∈ s.threads → 0 < s.file.current) ∧
  (∀ e, FileClearing.failed e ∉ s.threads) ∧
  (FileClearing.ended ∈ s.threads → s.file.current = 8) ∧
  (∀ g t, FileClearing.within g t ∈ s.threads →
    t ≠ .ended ∧ ∃ k : Nat, k < 8 ∧ dget f.slots (k : Int) = some g) ∧
  (∀ (k g : Nat) (grp0 : RegisterGroup), k < 8 → dget f.slots (k : Int) = some g →
    f.groups[g]? = some grp0 → ∃ grp, s.file.groups[g]? = some grp ∧
      ClearTurnInv f.heap grp0 ⟨s.file.heap, grp, s.threads.map (viewOf g)⟩) ∧
  ∀ k g : Nat, f.current ≤ k → k < s.file.current → dget f.slots (k : Int) = some g →
    (∃ grp, s.file.groups[g]? = some grp ∧ 32 ≤ grp.current) ∨
    (∃ t, FileClearing.within g t ∈ s.threads) ∨
    FileClearing.moved ∈ s.threads ∧ k + 1 = s.file.current

theorem fileTurnInv_step {f : Registers} (hf : FullFile f) {s : FileClearers} (h : FileTurnInv f s) (i : Nat)
    (ho : ∀ (j : Nat) (t : FileClearing), s.threads[j]? = some t → WithinFileNext t → j = i) :
    FileTurnInv f (s.step i) := by
  have hall := h
  obtain ⟨h1, h2, h3, h4, h5, h6, h7, h8, h9, h10⟩ := h
  have back : ∀ {x y : FileClearing}, y ∈ s.threads.set i x → y ≠ x → y ∈ s.threads :=
    fun hy hn => (mem_set_cases hy).resolve_left hn
  have only : ∀ {t u : FileClearing}, s.threads[i]? = some t → u ∈ s.threads → WithinFileNext u → u = t := by
    intro t u ht hu hw
    obtain ⟨j, hj⟩ := List.mem_iff_getElem?.1 hu
    have := ho j u hj hw
    subst this
    rw [ht] at hj
    exact (Option.some.inj hj).symm
  have views : ∀ {x y : FileClearing}, s.threads[i]? = some y → (∀ g, viewOf g x = viewOf g y) →
      ∀ (k g : Nat) (grp0 : RegisterGroup), k < 8 → dget f.slots (k : Int) = some g →
      f.groups[g]? = some grp0 → ∃ grp, s.file.groups[g]? = some grp ∧
      ClearTurnInv f.heap grp0 ⟨s.file.heap, grp, (s.threads.set i x).map (viewOf g)⟩ := by
    intro x y hy e k g grp0 a b c
    rw [map_set_same (viewOf g) hy (e g)]
    exact h9 k g grp0 a b c
  have keep : ∀ {t u : FileClearing}, s.threads[i]? = some t → (∀ g r, t ≠ .within g r) → t ≠ .moved →
      ∀ k g : Nat, f.current ≤ k → k < s.file.current → dget f.slots (k : Int) = some g →
      (∃ grp, s.file.groups[g]? = some grp ∧ 32 ≤ grp.current) ∨
      (∃ t, FileClearing.within g t ∈ s.threads.set i u) ∨
      FileClearing.moved ∈ s.threads.set i u ∧ k + 1 = s.file.current := by
    intro t u ht n1 n2 k g a b c
    rcases h10 k g a b c with h | ⟨r, hr⟩ | ⟨hm, hk⟩
    · exact .inl h
    · exact .inr (.inl ⟨r, mem_set_keep hr ht (fun e => n1 g r e.symm)⟩)
    · exact .inr (.inr ⟨mem_set_keep hm ht (fun e => n2 e.symm), hk⟩)
  unfold FileClearers.step
  split
  · exact hall
  · next hs =>
    split
    · next hc =>
      exact ⟨h1, h2, fun m => h3 (back m (by simp)), fun c m => h4 c (back m (by simp)),
        fun m => h5 (back m (by simp)), fun e m => h6 e (back m (by simp)),
        fun _ => Nat.le_antisymm h2 hc, fun g t m => h8 g t (back m (by simp)),
        views hs (fun _ => rfl), keep hs (by simp) (by simp)⟩
    · next hc =>
      exact ⟨h1, h2, fun _ => Nat.lt_of_not_le hc, fun c m => h4 c (back m (by simp)),
        fun m => h5 (back m (by simp)), fun e m => h6 e (back m (by simp)),
        fun m => h7 (back m (by simp)), fun g t m => h8 g t (back m (by simp)),
        views hs (fun _ => rfl), keep hs (by simp) (by simp)⟩
  · next hs =>
    have hlt := h3 (List.mem_of_getElem? hs)
    refine ⟨h1, h2, fun _ => hlt, fun c m => ?_,
        fun m => h5 (back m (by simp)), fun e m => h6 e (back m (by simp)),
        fun m => h7 (back m (by simp)), fun g t m => h8 g t (back m (by simp)),
        views hs (fun _ => rfl), keep hs (by simp) (by simp)⟩
    rcases mem_set_cases m with e | m
    · cases e; exact ⟨rfl, hlt⟩
    · exact h4 c m
  · next c hs =>
    obtain ⟨rfl, hlt⟩ := h4 c (List.mem_of_getElem? hs)
    have hi := (List.getElem?_eq_some_iff.1 hs).1
    refine ⟨h1, hlt, fun m => ?_, fun c m => ?_, fun _ => Nat.succ_pos _,
      fun e m => h6 e (back m (by simp)), fun m => ?_, fun g t m => h8 g t (back m (by simp)),
      views hs (fun _ => rfl), fun k g a b d => ?_⟩
    · cases only hs (back m (by simp)) trivial
    · exfalso
      obtain ⟨j, hj⟩ := List.mem_iff_getElem?.1 m
      by_cases e : i = j
      · subst e
        rw [List.getElem?_set_self hi] at hj
        cases hj
      · rw [List.getElem?_set_ne e] at hj
        exact e (ho j _ hj trivial).symm
    · have := h7 (back m (by simp)); omega
    · by_cases hk : k = s.file.current
      · exact .inr (.inr ⟨mem_set_here hi, by rw [hk]⟩)
      · rcases h10 k g a (by have : k < s.file.current + 1 := b; omega) d with h | ⟨r, hr⟩ | ⟨m, _⟩
        · exact .inl h
        · exact .inr (.inl ⟨r, mem_set_keep hr hs (by simp)⟩)
        · cases only hs m trivial
  · next hs =>
    have hp := h5 (List.mem_of_getElem? hs)
    have hi := (List.getElem?_eq_some_iff.1 hs).1
    obtain ⟨g, grp, hd, -, -⟩ := hf (s.file.current - 1) (by omega)
    have e : ((s.file.current - 1 : Nat) : Int) = (s.file.current : Int) - 1 := by omega
    have hd' : dgetE s.file.slots ((s.file.current : Int) - 1) = .ok g := by
      unfold dgetE
      rw [h1, ← e, hd]
    rw [hd']
    refine ⟨h1, h2, fun m => h3 (back m (by simp)), fun c m => h4 c (back m (by simp)),
        fun m => h5 (back m (by simp)), fun e m => h6 e (back m (by simp)),
        fun m => h7 (back m (by simp)), fun g' t m => ?_,
        views hs (fun g' => by unfold viewOf; simp), fun k g' a b d => ?_⟩
    · rcases mem_set_cases m with e | m
      · cases e
        exact ⟨by simp, s.file.current - 1, by omega, hd⟩
      · exact h8 g' t m
    · rcases h10 k g' a b d with h | ⟨r, hr⟩ | ⟨_, hk⟩
      · exact .inl h
      · exact .inr (.inl ⟨r, mem_set_keep hr hs (by simp)⟩)
      · have : k = s.file.current - 1 := by omega
        rw [this, hd] at d
        cases d
        exact .inr (.inl ⟨_, mem_set_here hi⟩)
  · next g t hs =>
    have hi := (List.getElem?_eq_some_iff.1 hs).1
    obtain ⟨hne, k0, hk0, hd0⟩ := h8 g t (List.mem_of_getElem? hs)
    obtain ⟨g1, grp0, hd1, hg0, hfull⟩ := hf k0 hk0
    rw [hd0] at hd1
    cases hd1
    obtain ⟨grp, hg, hinv⟩ := h9 k0 g grp0 hk0 hd0 hg0
    have hgl := (List.getElem?_eq_some_iff.1 hg).1
    rw [hg]
    obtain ⟨heap', grp', t', e, -, e2, -, -⟩ := clearers_one s.file.heap grp t
    dsimp only
    rw [e]
    have hv : (s.threads.map (viewOf g))[i]? = some t := by
      rw [List.getElem?_map, hs]
      exact congrArg some (viewOf_within g t)
    have hinv' := clearTurnInv_step hfull hinv i (fun j u hu hw => by
      rw [List.getElem?_map] at hu
      cases hj : s.threads[j]? with
      | none => rw [hj] at hu; cases hu
      | some v =>
        rw [hj] at hu
        cases hu
        exact ho j v hj (viewOf_next hw))
    rw [clearers_among hv e] at hinv'
    have hvl : i < (s.threads.map (viewOf g)).length := by simpa using hi
    have hnf : ∀ x, t' ≠ .failed x := fun x hx => hinv'.2.2.2.2.2.2.1 x (hx ▸ mem_set_here hvl)
    have hmono : grp.current = 32 → grp'.current = 32 := by
      intro hc
      have hnr : ∀ c, t ≠ .read c := by
        intro c hc'
        have := hinv.2.2.2.2.1 c (List.mem_of_getElem? (hc' ▸ hv))
        dsimp only at this
        omega
      unfold Clearers.step at e
      cases t with
      | read c => exact absurd rfl (hnr c)
      | _ =>
        simp only [List.getElem?_cons_zero] at e
        (try split at e) <;>
        · simp only [Clearers.mk.injEq] at e
          rw [← e.2.1]; exact hc
    have hafter : ∀ g' u, FileClearing.after g t' = .within g' u → g' = g ∧ u ≠ .ended ∧ u = t' := by
      intro g' u hu
      cases ht : t' <;> rw [ht] at hu <;> unfold FileClearing.after at hu <;> cases hu <;> simp
    have hkind : FileClearing.after g t' = .before ∧ t' = .ended ∨
        FileClearing.after g t' = .within g t' ∧ t' ≠ .ended := by
      cases ht : t' with
      | ended => exact .inl ⟨rfl, rfl⟩
      | failed x => exact absurd ht (hnf x)
      | _ => exact .inr ⟨rfl, by simp⟩
    have hno : ∀ x : FileClearing, (x = .passed ∨ (∃ c, x = .read c) ∨ x = .moved ∨ (∃ e, x = .failed e) ∨
        x = .ended) → x ∈ s.threads.set i (FileClearing.after g t') → x ∈ s.threads := by
      intro x hx hm
      refine back hm ?_
      rcases hkind with ⟨ha, -⟩ | ⟨ha, -⟩ <;> rw [ha] <;>
        rcases hx with rfl | ⟨_, rfl⟩ | rfl | ⟨_, rfl⟩ | rfl <;> simp
    refine ⟨h1, h2, fun m => h3 (hno _ (by simp) m), fun c m => h4 c (hno _ (by simp) m),
      fun m => h5 (hno _ (by simp) m), fun x m => h6 x (hno _ (by simp) m),
      fun m => h7 (hno _ (by simp) m), fun g' u m => ?_, fun k g' grp1 a b c => ?_, fun k g' a b c => ?_⟩
    · rcases mem_set_cases m with hm | m
      · obtain ⟨rfl, hu, -⟩ := hafter g' u hm.symm
        exact ⟨hu, k0, hk0, hd0⟩
      · exact h8 g' u m
    · by_cases hgg : g = g'
      · subst hgg
        rw [hg0] at c
        cases c
        refine ⟨grp', List.getElem?_set_self hgl, ?_⟩
        dsimp only [List.headD]
        rw [List.map_set]
        rcases hkind with ⟨ha, ht⟩ | ⟨ha, -⟩
        · rw [ha]
          rw [ht] at hinv'
          exact clearTurn_relax hinv'
        · rw [ha, viewOf_within]
          exact hinv'
      · obtain ⟨grp2, hg2, hinv2⟩ := h9 k g' grp1 a b c
        refine ⟨grp2, (List.getElem?_set_ne hgg).trans hg2, ?_⟩
        dsimp only [List.headD]
        have hview : viewOf g' (FileClearing.after g t') = viewOf g' (.within g t) := by
          have hw : ∀ u, viewOf g' (.within g u) = .before := fun u => if_neg hgg
          rcases hkind with ⟨ha, -⟩ | ⟨ha, -⟩
          · rw [ha, hw]; rfl
          · rw [ha, hw, hw]
        rw [map_set_same (viewOf g') hs hview]
        rcases e2 with e2 | ⟨r, -, e2⟩
        · rw [e2]; exact hinv2
        · rw [e2]; exact clearTurn_upd hinv2 r
    · dsimp only [List.headD]
      by_cases hgg : g = g'
      · subst hgg
        rcases hkind with ⟨ha, ht⟩ | ⟨ha, -⟩
        · refine .inl ⟨grp', List.getElem?_set_self hgl, ?_⟩
          have := hinv'.2.2.2.2.2.2.2.1 (ht ▸ mem_set_here hvl)
          dsimp only at this
          omega
        · exact .inr (.inl ⟨t', by rw [ha]; exact mem_set_here hi⟩)
      · rcases h10 k g' a b c with ⟨grp2, hg2, h32⟩ | ⟨r, hr⟩ | ⟨m, hk⟩
        · exact .inl ⟨grp2, (List.getElem?_set_ne hgg).trans hg2, h32⟩
        · exact .inr (.inl ⟨r, mem_set_keep hr hs (by simp [Ne.symm hgg])⟩)
        · exact .inr (.inr ⟨mem_set_keep m hs (by simp), hk⟩)
  · exact hall
  · exact hall

theorem fileTurnInv_run {f : Registers} (hf : FullFile f) (schedule : List Nat) : ∀ {s : FileClearers},
    FileTurnInv f s → FileNextInTurn s schedule → FileTurnInv f (s.run schedule) := by
  induction schedule with
  | nil => exact fun h _ => h
  | cons i l ih => exact fun h ht => ih (fileTurnInv_step hf h i ht.1) ht.2

theorem file_run_length (schedule : List Nat) : ∀ s : FileClearers,
    (s.run schedule).threads.length = s.threads.length := by
  induction schedule with
  | nil => exact fun _ => rfl
  | cons i l ih =>
    intro s
    rw [FileClearers.run_cons, ih]
    unfold FileClearers.step
    split <;> (try split) <;> simp

/-- C248 for threads of which none makes a step while another one is within a call of `next` of the file or
of a group, as with a lock for `next` only: when all calls are over, all have returned, and in all groups
from the cursor of the file on all registers from the cursor of the group on are zero. -/
theorem C248_in_turn_partial (f : Registers) (n : Nat) (schedule : List Nat) (hf : FullFile f)
    (hc : f.current ≤ 8) (hg : ∀ grp ∈ f.groups, grp.current ≤ 32) (hn : 0 < n)
    (ht : FileNextInTurn (FileClearers.start f n) schedule)
    (ho : ∀ t ∈ ((FileClearers.start f n).run schedule).threads, FileCallOver t) :
    (∀ t ∈ ((FileClearers.start f n).run schedule).threads, t = .ended) ∧
    ∀ (k g : Nat) (grp : RegisterGroup), f.current ≤ k → k < 8 → dget f.slots (k : Int) = some g →
      f.groups[g]? = some grp → ∀ j, grp.current ≤ j → j < 32 →
      Zeroed ((FileClearers.start f n).run schedule).file.heap grp j := by
  have hstart : FileTurnInv f (FileClearers.start f n) := by
    have hm : ∀ t ∈ (FileClearers.start f n).threads, t = .before := fun t h => List.eq_of_mem_replicate h
    refine ⟨rfl, hc, fun m => ?_, fun c m => ?_, fun m => ?_, fun e m => ?_, fun m => ?_, fun g t m => ?_,
      fun k g grp a b c => ⟨grp, c, ?_⟩, fun k g a b => absurd b (Nat.not_lt.2 a)⟩
    · cases hm _ m
    · cases hm _ m
    · cases hm _ m
    · cases hm _ m
    · cases hm _ m
    · cases hm _ m
    have : (FileClearers.start f n).threads.map (viewOf g) = List.replicate n .before := by
      simp [FileClearers.start, viewOf]
    rw [this]
    exact clearTurnInv_start f.heap n (hg grp (List.mem_of_getElem? c))
  obtain ⟨-, -, -, -, -, h6, h7, -, h9, h10⟩ := fileTurnInv_run hf schedule hstart ht
  have hlen := file_run_length schedule (FileClearers.start f n)
  have hall : ∀ t ∈ ((FileClearers.start f n).run schedule).threads, t = .ended := by
    intro t h
    have := ho t h
    cases t <;> first | rfl | exact absurd h (h6 _) | exact this.elim
  refine ⟨hall, fun k g grp a b c d j a' b' => ?_⟩
  have hend : FileClearing.ended ∈ ((FileClearers.start f n).run schedule).threads := by
    have hl : 0 < ((FileClearers.start f n).run schedule).threads.length := by
      rw [hlen]; simpa [FileClearers.start] using hn
    have := List.getElem_mem hl
    rw [hall _ this] at this
    exact this
  obtain ⟨grp1, hg1, -, -, -, -, -, -, -, -, hz⟩ := h9 k g grp b c d
  have h32 : 32 ≤ grp1.current := by
    rcases h10 k g a (by rw [h7 hend]; exact b) c with ⟨grp2, e, h⟩ | ⟨t, m⟩ | ⟨m, -⟩
    · rw [hg1] at e; cases e; exact h
    · cases hall _ m
    · cases hall _ m
  have hviews : ∀ u ∈ ((FileClearers.start f n).run schedule).threads.map (viewOf g), u = .before := by
    intro u hu
    obtain ⟨t, m, rfl⟩ := List.mem_map.1 hu
    rw [hall t m]; rfl
  rcases hz j a' (Nat.lt_of_lt_of_le b' h32) with h | ⟨r, m, -⟩ | ⟨m, -⟩
  · exact h
  · cases hviews _ m
  · cases hviews _ m

/-! The counterexample. -/

/-- A file of 16-bit registers that hold 1, with groups 1 to `k - 1` cleared. -/
def raceFile (k c : Nat) : Registers :=
  canon 16 (fun g _ => if 1 ≤ g ∧ g < k then 0 else 1) (fun g => if 1 ≤ g ∧ g < k then 32 else 0) c

/-- Both threads read the cursor of the file, one after the other has moved it; both get group 1; then the
first thread clears it and the rest. -/
def fileRace : List Nat := [0, 0, 0, 1, 1, 1, 0, 1] ++ (List.replicate 161 0 ++ (List.replicate 165 0 ++
  (List.replicate 165 0 ++ (List.replicate 165 0 ++ (List.replicate 165 0 ++ (List.replicate 165 0 ++
  (List.replicate 165 0 ++ [0, 1, 1])))))))

theorem race_begin : (FileClearers.start (raceFile 1 0) 2).run [0, 0, 0, 1, 1, 1, 0, 1] =
    ⟨raceFile 1 2, [.within 1 .before, .within 1 .before]⟩ := by decide +kernel

theorem race_first : FileClearers.run ⟨raceFile 1 2, [.within 1 .before, .within 1 .before]⟩
    (List.replicate 161 0) = ⟨raceFile 2 2, [.before, .within 1 .before]⟩ := by decide +kernel

theorem race_next : ∀ k < 8, 2 ≤ k → FileClearers.run ⟨raceFile k k, [.before, .within 1 .before]⟩
    (List.replicate 165 0) = ⟨raceFile (k + 1) (k + 1), [.before, .within 1 .before]⟩ := by decide +kernel

theorem race_end : FileClearers.run ⟨raceFile 8 8, [.before, .within 1 .before]⟩ [0, 1, 1] =
    ⟨raceFile 8 8, [.ended, .ended]⟩ := by decide +kernel

/-- Both calls return, and the registers of group 0 still hold 1. -/
theorem C248_missed : (FileClearers.start (raceFile 1 0) 2).run fileRace =
    ⟨raceFile 8 8, [.ended, .ended]⟩ := by
  unfold fileRace
  rw [FileClearers.run_append, race_begin, FileClearers.run_append, race_first,
    FileClearers.run_append, race_next 2 (by decide) (by decide),
    FileClearers.run_append, race_next 3 (by decide) (by decide),
    FileClearers.run_append, race_next 4 (by decide) (by decide),
    FileClearers.run_append, race_next 5 (by decide) (by decide),
    FileClearers.run_append, race_next 6 (by decide) (by decide),
    FileClearers.run_append, race_next 7 (by decide) (by decide), race_end]

theorem raceFile_full : FullFile (raceFile 1 0) := by
  have key : ∀ k < 8, dget (raceFile 1 0).slots (k : Nat) = some k ∧
      (raceFile 1 0).groups[k]? = some ⟨16, dictOf (32 * k), 0⟩ ∧ ∀ j < 32,
      dget (dictOf (32 * k)) (.num (j : Nat)) = some (32 * k + j) := by decide +kernel
  have hl : (raceFile 1 0).heap.length = 256 := by decide +kernel
  intro k hk
  obtain ⟨h1, h2, h3⟩ := key k hk
  exact ⟨k, _, h1, h2, fun j hj => ⟨_, h3 j hj, by rw [hl]; omega⟩⟩

/-- C248 does not hold: two threads can leave out a group. -/
theorem C248_refuted : ¬ C248_statement := by
  intro h
  have := h (raceFile 1 0) 2 fileRace raceFile_full (by unfold AtBegin; decide +kernel) (by decide)
    (by rw [C248_missed]; simp) 0 (mkReg 16 0 1)
    ⟨0, 0, ⟨16, dictOf 0, 0⟩, 0, by decide +kernel, by decide +kernel, by decide +kernel⟩
    (by rw [C248_missed]; decide +kernel)
  revert this
  decide +kernel

example : (FileClearers.start (raceFile 1 0) 3).threads[2]? = some .before ∧
    FullFile (FileClearers.start (raceFile 1 0) 3).file := ⟨rfl, raceFile_full⟩

/-- Registers that are not in the file stay: the one of this store has no group. -/
example : ((FileClearers.start { raceFile 1 0 with groups := [], heap := [mkReg 16 0 1] } 1).run
    [0, 0, 0, 0, 0]).threads = [.failed .attributeError] := by decide +kernel

/-- Whether the threads take turns, as a computation. -/
def turnsOk : FileClearers → List Nat → Bool
  | _, [] => true
  | s, i :: l => ((List.range s.threads.length).all fun j =>
      decide (∀ t ∈ s.threads[j]?, WithinFileNext t → j = i)) && turnsOk (s.step i) l

theorem turnsOk_sound (l : List Nat) : ∀ s, turnsOk s l = true → FileNextInTurn s l := by
  induction l with
  | nil => exact fun _ _ => trivial
  | cons i l ih =>
    intro s h
    unfold turnsOk at h
    rw [Bool.and_eq_true, List.all_eq_true] at h
    exact ⟨fun j t ht hw => of_decide_eq_true
      (h.1 j (List.mem_range.2 (List.getElem?_eq_some_iff.1 ht).1)) t ht hw, ih _ h.2⟩

/-- Two threads that clear the last registers of the last two groups, one each, taking turns. -/
example : FullFile (canon 16 (fun _ _ => 1) (fun _ => 31) 6) ∧
    (∀ grp ∈ (canon 16 (fun _ _ => 1) (fun _ => 31) 6).groups, grp.current ≤ 32) ∧
    FileNextInTurn (FileClearers.start (canon 16 (fun _ _ => 1) (fun _ => 31) 6) 2)
      [0, 0, 0, 0, 1, 1, 1, 1, 0, 0, 0, 0, 1, 1, 1, 1, 0, 1, 0, 1, 0, 1] ∧
    ((FileClearers.start (canon 16 (fun _ _ => 1) (fun _ => 31) 6) 2).run
      [0, 0, 0, 0, 1, 1, 1, 1, 0, 0, 0, 0, 1, 1, 1, 1, 0, 1, 0, 1, 0, 1]).threads =
      [.ended, .ended] := by
  refine ⟨?_, by decide +kernel, turnsOk_sound _ _ (by decide +kernel), by decide +kernel⟩
  have hl : (canon 16 (fun _ _ => 1) (fun _ => 31) 6).heap.length = 256 := by decide +kernel
  have key : ∀ k < 8, dget (canon 16 (fun _ _ => 1) (fun _ => 31) 6).slots (k : Nat) = some k ∧
      (canon 16 (fun _ _ => 1) (fun _ => 31) 6).groups[k]? = some ⟨16, dictOf (32 * k), 31⟩ ∧ ∀ j < 32,
      dget (dictOf (32 * k)) (.num (j : Nat)) = some (32 * k + j) := by decide +kernel
  intro k hk
  obtain ⟨h1, h2, h3⟩ := key k hk
  exact ⟨k, _, h1, h2, fun j hj => ⟨_, h3 j hj, by rw [hl]; omega⟩⟩

end H800
