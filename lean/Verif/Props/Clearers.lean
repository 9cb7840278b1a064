import Verif.Spec.Clearers
import Verif.Props.Takers
import Verif.Lemmas.Registers

/-!
C245: threads that clear one register group at the same time.
-/

namespace H800

open Spec

theorem Clearers.run_cons (s : Clearers) (i : Nat) (l : List Nat) :
    s.run (i :: l) = (s.step i).run l := rfl

theorem Clearers.run_append (s : Clearers) (k l : List Nat) :
    s.run (k ++ l) = (s.run k).run l := List.foldl_append ..

theorem clear_zero (x : Register) : x.clear.value = 0 := rfl

theorem clear_twice (x : Register) : x.clear.clear = x.clear := rfl

theorem upd_clear_get (heap : List Register) (r a : Nat) :
    (RegisterGroup.upd heap r Register.clear)[a]? =
      if a = r then heap[a]?.map Register.clear else heap[a]? := by
  unfold RegisterGroup.upd
  split
  · next x hx =>
    rw [List.getElem?_set]
    have hr : r < heap.length := (List.getElem?_eq_some_iff.1 hx).1
    by_cases h : r = a
    · subst h; rw [if_pos rfl, if_pos rfl, if_pos hr, hx]; rfl
    · rw [if_neg h, if_neg (fun e => h e.symm)]
  · next hx =>
    split
    · next h => subst h; simp [hx]
    · rfl

theorem zeroed_upd {heap : List Register} {g : RegisterGroup} {k : Nat} (h : Zeroed heap g k) (r : Nat) :
    Zeroed (RegisterGroup.upd heap r Register.clear) g k := by
  obtain ⟨a, x, h1, h2, h3⟩ := h
  refine ⟨a, if a = r then x.clear else x, h1, ?_, ?_⟩
  · rw [upd_clear_get, h2]; split <;> rfl
  · split
    · rfl
    · exact h3

theorem upd_length (heap : List Register) (r : Nat) :
    (RegisterGroup.upd heap r Register.clear).length = heap.length := by
  unfold RegisterGroup.upd
  split
  · exact List.length_set
  · rfl

/-- **C245** Threads that clear a group at the same time clear it: when all calls have returned, all
registers are zero. False: see `C245_refuted`. -/
def C245_statement : Prop :=
  ∀ (heap : List Register) (g : RegisterGroup) (n : Nat) (schedule : List Nat),
    FullGroup heap g → g.current = 0 → 0 < n →
    (∀ t ∈ ((Clearers.start heap g n).run schedule).threads, t = .ended) →
    ∀ k, k < 32 → Zeroed ((Clearers.start heap g n).run schedule).heap g k

/-- A new group is full, and its cursor is 0. -/
theorem C245_new (w : Int) (hw : w = 16 ∨ w = 24) : ∃ heap g, RegisterGroup.init [] w = .ok (heap, g) ∧
    FullGroup heap g ∧ g.current = 0 := by
  refine ⟨_, _, group_init w hw [], fun k hk => ?_, rfl⟩
  refine ⟨k, ?_, by simpa using hk⟩
  have : ∀ k < 32, dget (dictOf 0) (.num (k : Nat)) = some k := by decide +kernel
  exact this k hk

/-! What any schedule leaves. -/

/-- What holds after any steps of threads that clear a group. -/
def ClearersInv (heap : List Register) (g : RegisterGroup) (n : Nat) (s : Clearers) : Prop :=
  s.group.regs = g.regs ∧ s.group.width = g.width ∧ s.threads.length = n ∧
  g.current ≤ s.group.current ∧
  (∀ c, Clearing.read c ∈ s.threads → g.current ≤ c) ∧
  (Clearing.moved ∈ s.threads → g.current < s.group.current) ∧
  (∀ r, Clearing.got r ∈ s.threads → ∃ k : Nat, g.current ≤ k ∧ dget g.regs (.num k) = some r) ∧
  (∀ e, Clearing.failed e ∈ s.threads → e = .keyError) ∧
  ∀ a, s.heap[a]? = heap[a]? ∨ s.heap[a]? = heap[a]?.map Register.clear ∧
    ∃ k : Nat, g.current ≤ k ∧ dget g.regs (.num k) = some a

theorem clearersInv_step {heap : List Register} {g : RegisterGroup} {n : Nat} {s : Clearers}
    (h : ClearersInv heap g n s) (i : Nat) : ClearersInv heap g n (s.step i) := by
  obtain ⟨h1, h2, h3, h4, h5, h6, h7, h8, h9⟩ := h
  have back : ∀ {x y : Clearing}, y ∈ s.threads.set i x → y ≠ x → y ∈ s.threads :=
    fun hy hn => (mem_set_cases hy).resolve_left hn
  unfold Clearers.step
  split
  · exact ⟨h1, h2, h3, h4, h5, h6, h7, h8, h9⟩
  · split
    · exact ⟨h1, h2, by simpa using h3, h4, fun c hc => h5 c (back hc (by simp)),
        fun hc => h6 (back hc (by simp)), fun r hr => h7 r (back hr (by simp)),
        fun e he => h8 e (back he (by simp)), h9⟩
    · exact ⟨h1, h2, by simpa using h3, h4, fun c hc => h5 c (back hc (by simp)),
        fun hc => h6 (back hc (by simp)), fun r hr => h7 r (back hr (by simp)),
        fun e he => h8 e (back he (by simp)), h9⟩
  · refine ⟨h1, h2, by simpa using h3, h4, fun c hc => ?_,
        fun hc => h6 (back hc (by simp)), fun r hr => h7 r (back hr (by simp)),
        fun e he => h8 e (back he (by simp)), h9⟩
    rcases mem_set_cases hc with e | hc
    · cases e; exact h4
    · exact h5 c hc
  · next c hs =>
    have hc := h5 c (List.mem_of_getElem? hs)
    exact ⟨h1, h2, by simpa using h3, by show g.current ≤ c + 1; omega,
      fun c hc => h5 c (back hc (by simp)), fun _ => by show g.current < c + 1; omega,
      fun r hr => h7 r (back hr (by simp)), fun e he => h8 e (back he (by simp)), h9⟩
  · next hs =>
    have hm := h6 (List.mem_of_getElem? hs)
    split
    · next r hr =>
      refine ⟨h1, h2, by simpa using h3, h4, fun c hc => h5 c (back hc (by simp)),
        fun hc => h6 (back hc (by simp)), fun r' hr' => ?_, fun e he => h8 e (back he (by simp)), h9⟩
      rcases mem_set_cases hr' with e | hr'
      · cases e
        refine ⟨s.group.current - 1, by omega, ?_⟩
        rw [h1] at hr
        have e : ((s.group.current - 1 : Nat) : Int) = (s.group.current : Int) - 1 := by omega
        rw [e]
        unfold dgetE at hr
        split at hr
        · next hd => rw [hd]; injection hr with hr; rw [hr]
        · cases hr
      · exact h7 r' hr'
    · next e he =>
      refine ⟨h1, h2, by simpa using h3, h4, fun c hc => h5 c (back hc (by simp)),
        fun hc => h6 (back hc (by simp)), fun r hr => h7 r (back hr (by simp)), fun e' he' => ?_, h9⟩
      rcases mem_set_cases he' with e1 | he'
      · cases e1
        unfold dgetE at he
        split at he
        · cases he
        · injection he with he; exact he.symm
      · exact h8 e' he'
  · next r hs =>
    refine ⟨h1, h2, by simpa using h3, h4, fun c hc => h5 c (back hc (by simp)),
        fun hc => h6 (back hc (by simp)), fun r hr => h7 r (back hr (by simp)),
        fun e he => h8 e (back he (by simp)), fun a => ?_⟩
    show (RegisterGroup.upd s.heap r Register.clear)[a]? = _ ∨
      (RegisterGroup.upd s.heap r Register.clear)[a]? = _ ∧ _
    rw [upd_clear_get]
    split
    · next e =>
      subst e
      refine .inr ⟨?_, h7 a (List.mem_of_getElem? hs)⟩
      rcases h9 a with e | ⟨e, _⟩
      · rw [e]
      · rw [e]; cases heap[a]? <;> rfl
    · exact h9 a
  · exact ⟨h1, h2, h3, h4, h5, h6, h7, h8, h9⟩
  · exact ⟨h1, h2, h3, h4, h5, h6, h7, h8, h9⟩

theorem clearersInv_run {heap : List Register} {g : RegisterGroup} {n : Nat} (schedule : List Nat) :
    ∀ {s : Clearers}, ClearersInv heap g n s → ClearersInv heap g n (s.run schedule) := by
  induction schedule with
  | nil => exact fun h => h
  | cons i l ih => exact fun h => ih (clearersInv_step h i)

theorem clearersInv_start (heap : List Register) (g : RegisterGroup) (n : Nat) :
    ClearersInv heap g n (Clearers.start heap g n) := by
  refine ⟨rfl, rfl, by simp [Clearers.start], Nat.le_refl _, ?_, ?_, ?_, ?_, fun a => .inl rfl⟩ <;>
    intros <;> simp_all [Clearers.start]

/-- What is left of C245 for any schedule, at any time: a register of the store is as it was, or cleared,
which only those of the group from the cursor on can be; the group has the registers it had, and no
exception but KeyError is raised. -/
theorem C245_others_partial (heap : List Register) (g : RegisterGroup) (n : Nat) (schedule : List Nat) :
    (∀ a, ((Clearers.start heap g n).run schedule).heap[a]? = heap[a]? ∨
      ((Clearers.start heap g n).run schedule).heap[a]? = heap[a]?.map Register.clear ∧
      ∃ k : Nat, g.current ≤ k ∧ dget g.regs (.num k) = some a) ∧
    ((Clearers.start heap g n).run schedule).group.regs = g.regs ∧
    ∀ e, Clearing.failed e ∈ ((Clearers.start heap g n).run schedule).threads → e = .keyError := by
  obtain ⟨h1, _, _, _, _, _, _, h8, h9⟩ := clearersInv_run schedule (clearersInv_start heap g n)
  exact ⟨h9, h1, h8⟩

/-! The calls end. -/

/-- The steps that a thread can still make, but for those that depend on the cursor. -/
def surelyLeft (n k : Nat) : Clearing → Nat
  | .before => 1
  | .passed => 5
  | .read c => 4 + 5 * takeBound n (k - (c + 1))
  | .moved => 3
  | .got _ => 2
  | .ended => 0
  | .failed _ => 0

/-- The steps that a thread can still make at cursor `x` of `k` registers, and let others make. -/
def stepsLeft (n k x : Nat) : Clearing → Nat
  | .before => 1 + 5 * idleWeight n k x
  | .passed => 5 + 5 * takeBound n (k - (x + 1))
  | .read c => 4 + 5 * takeBound n (k - (c + 1))
  | .moved => 3 + 5 * idleWeight n k x
  | .got _ => 2 + 5 * idleWeight n k x
  | .ended => 0
  | .failed _ => 0

theorem surely_le (n k x : Nat) (t : Clearing) : surelyLeft n k t ≤ stepsLeft n k x t := by
  cases t <;> simp [surelyLeft, stepsLeft]

theorem left_le (n k x : Nat) (t : Clearing) :
    stepsLeft n k x t ≤ surelyLeft n k t + 5 * idleWeight n k x := by
  cases t <;> simp only [surelyLeft, stepsLeft] <;> try omega
  unfold idleWeight
  split
  · omega
  · have : k - (x + 1) = 0 := by omega
    rw [this]; simp [takeBound]

theorem sum_surely_le (n k x : Nat) (l : List Clearing) :
    (l.map (surelyLeft n k)).sum ≤ (l.map (stepsLeft n k x)).sum := by
  induction l with
  | nil => simp
  | cons t l ih =>
    have := surely_le n k x t
    simp only [List.map_cons, List.sum_cons]
    omega

theorem sum_left_le (n k x : Nat) (l : List Clearing) :
    (l.map (stepsLeft n k x)).sum ≤ (l.map (surelyLeft n k)).sum + 5 * (l.length * idleWeight n k x) := by
  induction l with
  | nil => simp
  | cons t l ih =>
    have := left_le n k x t
    simp only [List.map_cons, List.sum_cons, List.length_cons, Nat.succ_mul]
    omega

/-- The steps that all threads together can still make. -/
def allLeft (n : Nat) (s : Clearers) : Nat := (s.threads.map (stepsLeft n 32 s.group.current)).sum

theorem registers_32 : REGISTERS.length = 32 := rfl

theorem allLeft_step (s : Clearers) (i : Nat) : s.step i = s ∨
    allLeft s.threads.length (s.step i) < allLeft s.threads.length s := by
  unfold Clearers.step allLeft
  split
  · exact .inl rfl
  · next hs =>
    refine .inr ?_
    split
    · next hc =>
      have := sum_map_set (stepsLeft s.threads.length 32 s.group.current) .ended hs
      simp only [stepsLeft] at *
      omega
    · next hc =>
      rw [registers_32] at hc
      have := sum_map_set (stepsLeft s.threads.length 32 s.group.current) .passed hs
      have hi : idleWeight s.threads.length 32 s.group.current =
          1 + takeBound s.threads.length (32 - (s.group.current + 1)) := by
        unfold idleWeight
        rw [if_pos (by omega)]
      simp only [stepsLeft, hi] at this
      dsimp only
      omega
  · next hs =>
    have := sum_map_set (stepsLeft s.threads.length 32 s.group.current) (.read s.group.current) hs
    simp only [stepsLeft] at *
    omega
  · next c hs =>
    have h1 := sum_left_le s.threads.length 32 (c + 1) (s.threads.set i .moved)
    have h2 := sum_map_set (surelyLeft s.threads.length 32) .moved hs
    have h3 := sum_surely_le s.threads.length 32 s.group.current s.threads
    have h4 := takeBound_idle s.threads.length 32 (c + 1)
    rw [List.length_set] at h1
    simp only [surelyLeft] at h2
    simp only
    omega
  · next hs =>
    refine .inr ?_
    split
    · next r _ =>
      have := sum_map_set (stepsLeft s.threads.length 32 s.group.current) (.got r) hs
      simp only [stepsLeft] at *
      omega
    · next e _ =>
      have := sum_map_set (stepsLeft s.threads.length 32 s.group.current) (.failed e) hs
      simp only [stepsLeft] at *
      omega
  · next r hs =>
    have := sum_map_set (stepsLeft s.threads.length 32 s.group.current) .before hs
    simp only [stepsLeft] at *
    omega
  · exact .inl rfl
  · exact .inl rfl

theorem step_length (s : Clearers) (i : Nat) : (s.step i).threads.length = s.threads.length := by
  unfold Clearers.step
  split <;> (try split) <;> simp

/-- A step of a thread whose call is not over is a step. -/
theorem step_works {s : Clearers} {i : Nat} {t : Clearing} (h : s.threads[i]? = some t)
    (ht : ¬ CallOver t) : s.step i ≠ s := by
  have key : ∀ {s' : Clearers} {u : Clearing}, u ≠ t → s'.threads = s.threads.set i u → s' ≠ s := by
    intro s' u hu e1 e2
    rw [e2] at e1
    have : (s.threads.set i u)[i]? = some t := by rw [← e1]; exact h
    rw [List.getElem?_set_self (List.getElem?_eq_some_iff.1 h).1] at this
    exact hu (Option.some.inj this)
  unfold Clearers.step
  rw [h]
  cases t with
  | before => dsimp only; split <;> exact key (by simp) rfl
  | passed => exact key (u := .read s.group.current) (by simp) rfl
  | read c => exact key (u := .moved) (by simp) rfl
  | moved =>
    dsimp only
    split
    · next r _ => exact key (u := .got r) (by simp) rfl
    · next e _ => exact key (u := .failed e) (by simp) rfl
  | got r => exact key (u := .before) (by simp) rfl
  | ended => exact absurd trivial ht
  | failed e => exact absurd trivial ht

/-- A call that is over stays so, whoever makes a step. -/
theorem over_step {s : Clearers} {i : Nat} {t : Clearing} (h : s.threads[i]? = some t) (ht : CallOver t)
    (j : Nat) : (s.step j).threads[i]? = some t := by
  by_cases hj : j = i
  · subst hj
    unfold Clearers.step
    rw [h]
    cases t <;> simp_all [CallOver]
  · unfold Clearers.step
    split <;> (try split) <;> simp [hj, h]

theorem over_run {i : Nat} {t : Clearing} (ht : CallOver t) (schedule : List Nat) :
    ∀ {s : Clearers}, s.threads[i]? = some t → (s.run schedule).threads[i]? = some t := by
  induction schedule with
  | nil => exact fun h => h
  | cons j l ih => exact fun h => ih (over_step h ht j)

theorem count_le_left (i : Nat) (schedule : List Nat) : ∀ {s : Clearers} (t : Clearing),
    (s.run schedule).threads[i]? = some t → ¬ CallOver t →
    schedule.count i + allLeft s.threads.length (s.run schedule) ≤ allLeft s.threads.length s := by
  induction schedule with
  | nil => intro s t _ _; simp [Clearers.run]
  | cons j l ih =>
    intro s t h ht
    rw [Clearers.run_cons] at h ⊢
    have h1 := ih t h ht
    rw [step_length] at h1
    rcases allLeft_step s j with e | hlt
    · by_cases hj : j = i
      · exfalso
        subst hj
        have hlen : j < s.threads.length := by
          by_contra hn
          have : ((s.step j).run l).threads.length = s.threads.length := by
            clear h h1 e
            have : ∀ (l : List Nat) (s : Clearers), (s.run l).threads.length = s.threads.length := by
              intro l
              induction l with
              | nil => exact fun _ => rfl
              | cons a l ih => exact fun s => (ih (s.step a)).trans (step_length s a)
            rw [this, step_length]
          have := (List.getElem?_eq_some_iff.1 h).1
          omega
        obtain ⟨u, hu⟩ : ∃ u, s.threads[j]? = some u := ⟨_, List.getElem?_eq_getElem hlen⟩
        by_cases ho : CallOver u
        · have := over_run ho (j :: l) hu
          rw [Clearers.run_cons, h] at this
          exact ht (Option.some.inj this ▸ ho)
        · exact step_works hu ho e
      · rw [List.count_cons_of_ne hj]
        rw [e] at h1 ⊢
        exact h1
    · rw [List.count_cons]
      split <;> omega

/-- What is left of C245 for any schedule: every call ends. Whatever the others do, a thread that makes
more steps than a number that depends on the numbers of threads and of registers left only, has come to
the end of its call. -/
theorem C245_ends_partial (heap : List Register) (g : RegisterGroup) (n : Nat) (schedule : List Nat)
    (i : Nat) (hi : i < n) (h : 5 * takeBound n (32 - g.current) + n < schedule.count i) :
    ∃ t, ((Clearers.start heap g n).run schedule).threads[i]? = some t ∧ CallOver t := by
  have hlen := (clearersInv_run schedule (clearersInv_start heap g n)).2.2.1
  refine ⟨_, List.getElem?_eq_getElem (by omega), ?_⟩
  by_contra hn
  have h1 := count_le_left i schedule (s := Clearers.start heap g n) _
    (List.getElem?_eq_getElem (by omega)) hn
  have h2 : allLeft n (Clearers.start heap g n) = 5 * takeBound n (32 - g.current) + n := by
    rw [takeBound_idle, allLeft]
    simp only [Clearers.start, List.map_replicate, List.sum_replicate, stepsLeft, smul_eq_mul]
    rw [Nat.mul_add, Nat.mul_one, Nat.mul_left_comm]
    omega
  have h3 : (Clearers.start heap g n).threads.length = n := by simp [Clearers.start]
  rw [h3, h2] at h1
  omega

/-! Threads that take turns. -/

theorem mem_set_keep {α : Type} {l : List α} {i : Nat} {x y z : α} (hy : y ∈ l) (hx : l[i]? = some x)
    (hn : y ≠ x) : y ∈ l.set i z := by
  obtain ⟨j, hj⟩ := List.mem_iff_getElem?.1 hy
  have : i ≠ j := fun e => by subst e; rw [hx] at hj; exact hn (Option.some.inj hj).symm
  exact List.mem_iff_getElem?.2 ⟨j, by rw [List.getElem?_set_ne this]; exact hj⟩

/-- What holds while no thread makes a step within another one's call of `next`: the registers before the
cursor are zero, but for those that a thread is about to clear. -/
def ClearTurnInv (heap : List Register) (g : RegisterGroup) (s : Clearers) : Prop :=
  s.group.regs = g.regs ∧ s.heap.length = heap.length ∧ s.group.current ≤ 32 ∧
  (Clearing.passed ∈ s.threads → s.group.current < 32) ∧
  (∀ c, Clearing.read c ∈ s.threads → c = s.group.current ∧ s.group.current < 32) ∧
  (Clearing.moved ∈ s.threads → 0 < s.group.current) ∧
  (∀ e, Clearing.failed e ∉ s.threads) ∧
  (Clearing.ended ∈ s.threads → s.group.current = 32) ∧
  ∀ k, g.current ≤ k → k < s.group.current → Zeroed s.heap g k ∨
    (∃ r, Clearing.got r ∈ s.threads ∧ dget g.regs (.num k) = some r) ∨
    Clearing.moved ∈ s.threads ∧ k + 1 = s.group.current

theorem clearTurnInv_step {heap : List Register} {g : RegisterGroup} (hg : FullGroup heap g) {s : Clearers}
    (h : ClearTurnInv heap g s) (i : Nat)
    (ho : ∀ (j : Nat) (t : Clearing), s.threads[j]? = some t → WithinNext t → j = i) :
    ClearTurnInv heap g (s.step i) := by
  obtain ⟨h1, h2, h3, h4, h5, h6, h7, h8, h9⟩ := h
  have back : ∀ {x y : Clearing}, y ∈ s.threads.set i x → y ≠ x → y ∈ s.threads :=
    fun hy hn => (mem_set_cases hy).resolve_left hn
  have only : ∀ {t u : Clearing}, s.threads[i]? = some t → u ∈ s.threads → WithinNext u → u = t := by
    intro t u ht hu hw
    obtain ⟨j, hj⟩ := List.mem_iff_getElem?.1 hu
    have := ho j u hj hw
    subst this
    rw [ht] at hj
    exact (Option.some.inj hj).symm
  have keep : ∀ {t u : Clearing}, s.threads[i]? = some t → (∀ r, t ≠ .got r) → t ≠ .moved → ∀ k,
      (Zeroed s.heap g k ∨ (∃ r, Clearing.got r ∈ s.threads ∧ dget g.regs (.num k) = some r) ∨
        Clearing.moved ∈ s.threads ∧ k + 1 = s.group.current) →
      (Zeroed s.heap g k ∨ (∃ r, Clearing.got r ∈ s.threads.set i u ∧ dget g.regs (.num k) = some r) ∨
        Clearing.moved ∈ s.threads.set i u ∧ k + 1 = s.group.current) := by
    intro t u ht h1 h2 k hk
    rcases hk with hk | ⟨r, hr, hd⟩ | ⟨hm, hk⟩
    · exact .inl hk
    · exact .inr (.inl ⟨r, mem_set_keep hr ht (fun e => h1 r e.symm), hd⟩)
    · exact .inr (.inr ⟨mem_set_keep hm ht (fun e => h2 e.symm), hk⟩)
  unfold Clearers.step
  split
  · exact ⟨h1, h2, h3, h4, h5, h6, h7, h8, h9⟩
  · next hs =>
    split
    · next hc =>
      rw [registers_32] at hc
      exact ⟨h1, h2, h3, fun h => h4 (back h (by simp)), fun c hc => h5 c (back hc (by simp)),
        fun h => h6 (back h (by simp)), fun e he => h7 e (back he (by simp)),
        fun _ => Nat.le_antisymm h3 hc,
        fun k a b => keep hs (by simp) (by simp) k (h9 k a b)⟩
    · next hc =>
      rw [registers_32] at hc
      exact ⟨h1, h2, h3, fun _ => Nat.lt_of_not_le hc, fun c hc => h5 c (back hc (by simp)),
        fun h => h6 (back h (by simp)), fun e he => h7 e (back he (by simp)),
        fun h => h8 (back h (by simp)),
        fun k a b => keep hs (by simp) (by simp) k (h9 k a b)⟩
  · next hs =>
    have hlt := h4 (List.mem_of_getElem? hs)
    refine ⟨h1, h2, h3, fun _ => hlt, fun c hc => ?_,
        fun h => h6 (back h (by simp)), fun e he => h7 e (back he (by simp)),
        fun h => h8 (back h (by simp)),
        fun k a b => keep hs (by simp) (by simp) k (h9 k a b)⟩
    rcases mem_set_cases hc with e | hc
    · cases e; exact ⟨rfl, hlt⟩
    · exact h5 c hc
  · next c hs =>
    obtain ⟨rfl, hlt⟩ := h5 c (List.mem_of_getElem? hs)
    refine ⟨h1, h2, hlt, fun h => ?_, fun c hc => ?_, fun _ => Nat.succ_pos _,
      fun e he => h7 e (back he (by simp)), fun h => ?_, fun k a b => ?_⟩
    · cases only hs (back h (by simp)) trivial
    · cases only hs (back hc (by simp)) trivial
      exact absurd (List.mem_iff_getElem?.1 hc) (by
        rintro ⟨j, hj⟩
        by_cases e : i = j
        · subst e
          rw [List.getElem?_set_self (List.getElem?_eq_some_iff.1 hs).1] at hj
          cases hj
        · rw [List.getElem?_set_ne e] at hj
          exact e (ho j _ hj trivial).symm)
    · have := h8 (back h (by simp)); omega
    · have hm : Clearing.moved ∈ s.threads.set i .moved :=
        List.mem_iff_getElem?.2 ⟨i, List.getElem?_set_self (List.getElem?_eq_some_iff.1 hs).1⟩
      by_cases hk : k = s.group.current
      · exact .inr (.inr ⟨hm, by rw [hk]⟩)
      · rcases h9 k a (by have : k < s.group.current + 1 := b; omega) with h | ⟨r, hr, hd⟩ | ⟨h, _⟩
        · exact .inl h
        · exact .inr (.inl ⟨r, mem_set_keep hr hs (by simp), hd⟩)
        · cases only hs h trivial
  · next hs =>
    have hp := h6 (List.mem_of_getElem? hs)
    obtain ⟨r, hr, hl⟩ := hg (s.group.current - 1) (by omega)
    have e : ((s.group.current - 1 : Nat) : Int) = (s.group.current : Int) - 1 := by omega
    have hd : dgetE s.group.regs (.num ((s.group.current : Int) - 1)) = .ok r := by
      unfold dgetE
      rw [h1, ← e, hr]
    rw [hd]
    refine ⟨h1, h2, h3, fun h => h4 (back h (by simp)), fun c hc => h5 c (back hc (by simp)),
        fun h => h6 (back h (by simp)), fun e he => h7 e (back he (by simp)),
        fun h => h8 (back h (by simp)), fun k a b => ?_⟩
    rcases h9 k a b with h | ⟨r', hr', hd'⟩ | ⟨_, hk⟩
    · exact .inl h
    · exact .inr (.inl ⟨r', mem_set_keep hr' hs (by simp), hd'⟩)
    · refine .inr (.inl ⟨r, List.mem_iff_getElem?.2
        ⟨i, List.getElem?_set_self (List.getElem?_eq_some_iff.1 hs).1⟩, ?_⟩)
      have : k = s.group.current - 1 := by omega
      rw [this]; exact hr
  · next r hs =>
    refine ⟨h1, (upd_length _ _).trans h2, h3, fun h => h4 (back h (by simp)),
        fun c hc => h5 c (back hc (by simp)),
        fun h => h6 (back h (by simp)), fun e he => h7 e (back he (by simp)),
        fun h => h8 (back h (by simp)), fun k a b => ?_⟩
    rcases h9 k a b with h | ⟨r', hr', hd'⟩ | ⟨h, hk⟩
    · exact .inl (zeroed_upd h r)
    · by_cases e : r' = r
      · subst e
        obtain ⟨r2, hr2, hl⟩ := hg k (Nat.lt_of_lt_of_le b h3)
        rw [hd'] at hr2
        cases hr2
        have hl' : r' < s.heap.length := by omega
        refine .inl ⟨r', (s.heap[r']).clear, hd', ?_, rfl⟩
        show (RegisterGroup.upd s.heap r' Register.clear)[r']? = _
        rw [upd_clear_get, if_pos rfl, List.getElem?_eq_getElem hl']
        rfl
      · exact .inr (.inl ⟨r', mem_set_keep hr' hs (by simpa using e), hd'⟩)
    · exact .inr (.inr ⟨mem_set_keep h hs (by simp), hk⟩)
  · exact ⟨h1, h2, h3, h4, h5, h6, h7, h8, h9⟩
  · exact ⟨h1, h2, h3, h4, h5, h6, h7, h8, h9⟩

theorem clearTurnInv_run {heap : List Register} {g : RegisterGroup} (hg : FullGroup heap g)
    (schedule : List Nat) : ∀ {s : Clearers}, ClearTurnInv heap g s → NextInTurn s schedule →
      ClearTurnInv heap g (s.run schedule) := by
  induction schedule with
  | nil => exact fun h _ => h
  | cons i l ih => exact fun h ht => ih (clearTurnInv_step hg h i ht.1) ht.2

theorem clearTurnInv_start (heap : List Register) {g : RegisterGroup} (n : Nat) (h : g.current ≤ 32) :
    ClearTurnInv heap g (Clearers.start heap g n) := by
  refine ⟨rfl, rfl, h, ?_, ?_, ?_, ?_, ?_, fun k a b => absurd b (by simp [Clearers.start]; omega)⟩ <;>
    intros <;> simp_all [Clearers.start]

/-- C245 for threads of which none makes a step while another one is within a call of `next`, as with a
lock for `next` only: when all calls are over, all have returned, and all registers from the cursor on are
zero. -/
theorem C245_in_turn_partial (heap : List Register) (g : RegisterGroup) (n : Nat) (schedule : List Nat)
    (hg : FullGroup heap g) (hc : g.current ≤ 32) (hn : 0 < n)
    (ht : NextInTurn (Clearers.start heap g n) schedule)
    (ho : ∀ t ∈ ((Clearers.start heap g n).run schedule).threads, CallOver t) :
    (∀ t ∈ ((Clearers.start heap g n).run schedule).threads, t = .ended) ∧
    ∀ k, g.current ≤ k → k < 32 → Zeroed ((Clearers.start heap g n).run schedule).heap g k := by
  obtain ⟨_, _, _, _, _, _, h7, h8, h9⟩ :=
    clearTurnInv_run hg schedule (clearTurnInv_start heap n hc) ht
  have hlen := (clearersInv_run schedule (clearersInv_start heap g n)).2.2.1
  have hall : ∀ t ∈ ((Clearers.start heap g n).run schedule).threads, t = .ended := by
    intro t h
    have := ho t h
    cases t <;> first | rfl | exact absurd h (h7 _) | exact this.elim
  refine ⟨hall, fun k h1 h2 => ?_⟩
  have hend : Clearing.ended ∈ ((Clearers.start heap g n).run schedule).threads := by
    have hl : 0 < ((Clearers.start heap g n).run schedule).threads.length := by omega
    have := List.getElem_mem hl
    rw [hall _ this] at this
    exact this
  rcases h9 k h1 (by rw [h8 hend]; exact h2) with h | ⟨r, hr, _⟩ | ⟨hm, _⟩
  · exact h
  · cases hall _ hr
  · cases hall _ hm

/-! One thread alone. -/

theorem clear_round {s : Clearers} {i : Nat} (h : s.threads[i]? = some .before)
    (hg : FullGroup s.heap s.group) (hc : s.group.current < 32) : ∃ r,
    s.group.next = ({ s.group with current := s.group.current + 1 }, .ok (some r)) ∧
    s.run (List.replicate 5 i) = ⟨RegisterGroup.upd s.heap r Register.clear,
      { s.group with current := s.group.current + 1 }, s.threads⟩ := by
  obtain ⟨r, hr, _⟩ := hg s.group.current hc
  have hl := (List.getElem?_eq_some_iff.1 h).1
  have hd : dgetE s.group.regs (.num (s.group.current : Int)) = .ok r := by unfold dgetE; rw [hr]
  refine ⟨r, ?_, ?_⟩
  · unfold RegisterGroup.next
    rw [if_neg (by rw [registers_32]; omega)]
    simp only [hd]
  · obtain ⟨heap, group, threads⟩ := s
    dsimp only at *
    have e : ((group.current + 1 : Nat) : Int) - 1 = group.current := by omega
    have hn : ¬ group.current ≥ REGISTERS.length := by rw [registers_32]; omega
    simp only [Clearers.run, List.replicate, List.foldl_cons, List.foldl_nil]
    have s1 : Clearers.step ⟨heap, group, threads⟩ i = ⟨heap, group, threads.set i .passed⟩ := by
      simp [Clearers.step, h, hn]
    rw [s1]
    simp only [Clearers.step, List.getElem?_set_self hl, List.set_set, e, hd,
      set_set_back h]

theorem clear_alone (i fuel : Nat) : ∀ {s : Clearers}, s.threads[i]? = some .before →
    FullGroup s.heap s.group → 32 - s.group.current < fuel → ∃ k rs g',
      RegisterGroup.loop fuel s.group = (g', .ok rs) ∧
      s.run (List.replicate k i) = ⟨rs.foldl (fun h r => RegisterGroup.upd h r Register.clear) s.heap, g',
        s.threads.set i .ended⟩ := by
  induction fuel with
  | zero => intro s _ _ h; omega
  | succ fuel ih =>
    intro s h hg hf
    by_cases hc : s.group.current < 32
    · obtain ⟨r, h1, h2⟩ := clear_round h hg hc
      obtain ⟨k, rs, g', h3, h4⟩ := ih (s := ⟨RegisterGroup.upd s.heap r Register.clear,
        { s.group with current := s.group.current + 1 }, s.threads⟩) h
        (fun k hk => by
          obtain ⟨r', a, b⟩ := hg k hk
          exact ⟨r', a, by rw [upd_length]; exact b⟩) (by show 32 - (s.group.current + 1) < fuel; omega)
      refine ⟨5 + k, r :: rs, g', ?_, ?_⟩
      · rw [RegisterGroup.loop, h1]
        dsimp only
        rw [h3]
      · rw [List.replicate_add, Clearers.run_append, h2, h4]
        rfl
    · refine ⟨1, [], s.group, ?_, ?_⟩
      · rw [RegisterGroup.loop, RegisterGroup.next, if_pos (by rw [registers_32]; omega)]
      · simp only [Clearers.run, List.replicate, List.foldl_cons, List.foldl_nil, Clearers.step, h]
        rw [if_pos (by rw [registers_32]; omega)]

/-- A call that no step of another thread comes into is that of `RegisterGroup.clear`. -/
theorem C245_alone (s : Clearers) (i : Nat) (h : s.threads[i]? = some .before)
    (hg : FullGroup s.heap s.group) : ∃ k,
    s.run (List.replicate k i) = ⟨(RegisterGroup.clear s.heap s.group).1,
      (RegisterGroup.clear s.heap s.group).2.1, s.threads.set i .ended⟩ ∧
    (RegisterGroup.clear s.heap s.group).2.2 = .ok () := by
  obtain ⟨k, rs, g', h1, h2⟩ := clear_alone i (REGISTERS.length + 1) h hg (by rw [registers_32]; omega)
  refine ⟨k, ?_, ?_⟩ <;> unfold RegisterGroup.clear RegisterGroup.forLoop <;> rw [h1]
  exact h2

/-! The race. -/

/-- A new group of 16 bits whose registers hold 1. -/
def onesHeap : List Register := (List.range 32).map fun n => mkReg 16 n 1

/-- Its numbers and its cursor. -/
def onesGroup : RegisterGroup := ⟨16, dictOf 0, 0⟩

/-- Both threads read the cursor 0, one after the other has moved it; both clear register 1; then the
first thread clears the rest. -/
def clearRace : List Nat := [0, 0, 0, 1, 1, 1, 0, 1, 0, 1] ++ List.replicate 151 0 ++ [1]

theorem onesGroup_full : FullGroup onesHeap onesGroup := by
  intro k hk
  refine ⟨k, ?_, by simpa [onesHeap] using hk⟩
  have : ∀ k < 32, dget (dictOf 0) (.num (k : Nat)) = some k := by decide +kernel
  exact this k hk

/-- Both calls return, and register 0 still holds 1. -/
theorem C245_missed : ((Clearers.start onesHeap onesGroup 2).run clearRace).threads = [.ended, .ended] ∧
    (((Clearers.start onesHeap onesGroup 2).run clearRace).heap[0]?.map Register.value) = some 1 := by
  decide +kernel

/-- At the last register both calls can raise KeyError, although the group is full. -/
theorem C245_error : ((Clearers.start onesHeap { onesGroup with current := 31 } 2).run
      [0, 1, 0, 0, 1, 1, 0, 1]).threads = [.failed .keyError, .failed .keyError] := by
  decide +kernel

/-- C245 does not hold: two threads can leave out a register. -/
theorem C245_refuted : ¬ C245_statement := by
  intro h
  obtain ⟨r, x, h1, h2, h3⟩ := h onesHeap onesGroup 2 clearRace onesGroup_full rfl (by decide)
    (by rw [C245_missed.1]; simp) 0 (by decide)
  have : dget onesGroup.regs (.num (0 : Nat)) = some 0 := by decide +kernel
  rw [this] at h1
  cases h1
  have := C245_missed.2
  rw [h2] at this
  simp only [Option.map_some, Option.some.injEq] at this
  omega

/-- Threads that take turns with the last two registers. -/
example : FullGroup onesHeap { onesGroup with current := 30 } ∧
    NextInTurn (Clearers.start onesHeap { onesGroup with current := 30 } 2)
      [0, 0, 0, 0, 1, 1, 1, 1, 0, 1, 0, 1] ∧
    ((Clearers.start onesHeap { onesGroup with current := 30 } 2).run
      [0, 0, 0, 0, 1, 1, 1, 1, 0, 1, 0, 1]).threads = [.ended, .ended] := by
  refine ⟨onesGroup_full, ?_, by decide +kernel⟩
  have key : ∀ (l : List Clearing) (i : Nat),
      ((List.range l.length).all fun j => decide (∀ t ∈ l[j]?, WithinNext t → j = i)) = true →
      ∀ (j : Nat) (t : Clearing), l[j]? = some t → WithinNext t → j = i := by
    intro l i h j t ht hw
    rw [List.all_eq_true] at h
    exact of_decide_eq_true
      (h j (List.mem_range.2 (List.getElem?_eq_some_iff.1 ht).1)) t ht hw
  refine ⟨key _ _ ?_, key _ _ ?_, key _ _ ?_, key _ _ ?_, key _ _ ?_, key _ _ ?_, key _ _ ?_, key _ _ ?_,
    key _ _ ?_, key _ _ ?_, key _ _ ?_, key _ _ ?_, trivial⟩ <;> decide +kernel

/-- With one register left two threads make not more than 12 steps each. -/
example : 5 * takeBound 2 (32 - ({ onesGroup with current := 31 } : RegisterGroup).current) + 2 = 12 ∧
    12 < (List.replicate 13 0 ++ [1, 1]).count 0 := by decide +kernel

example : (Clearers.start onesHeap onesGroup 3).threads[2]? = some .before ∧
    FullGroup (Clearers.start onesHeap onesGroup 3).heap (Clearers.start onesHeap onesGroup 3).group :=
  ⟨rfl, onesGroup_full⟩

end H800
