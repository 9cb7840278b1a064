import Verif.Spec.Takers
import Mathlib.Tactic.Linarith
import Mathlib.Tactic.Ring

/-!
Property C240: threads that iterate over one bank.
-/

namespace H800

open Spec

/-- A bank of `k` words 0 and its cursor. -/
def zeroBank (k c : Nat) : MemoryBank :=
  ⟨List.replicate k ⟨⟨48, 0, .msb1, .msbLeft⟩⟩, c⟩

theorem Takers.run_cons (s : Takers) (i : Nat) (l : List Nat) :
    s.run (i :: l) = (s.step i).run l := rfl

theorem bank_word_ok {m : MemoryBank} {a : Nat} (h : a < m.len) : ∃ w, m.word (a : Int) = .ok w := by
  unfold MemoryBank.word
  have : ¬ ((a : Int) < 0) := by omega
  rw [if_neg this]
  have h' : a < m.words.length := h
  simp [h']

theorem bank_word_error {m : MemoryBank} {a : Nat} (h : m.len ≤ a) :
    m.word (a : Int) = .error .keyError := by
  unfold MemoryBank.word
  have : ¬ ((a : Int) < 0) := by omega
  rw [if_neg this]
  have h' : m.words.length ≤ a := h
  simp [h']

theorem taken_ok {m : MemoryBank} (h0 : 0 < m.current) (h : m.current ≤ m.len) :
    m.taken = .ok (some (m.current - 1)) := by
  obtain ⟨w, hw⟩ := bank_word_ok (m := m) (a := m.current - 1) (by omega)
  unfold MemoryBank.taken
  rw [show ((m.current : Int) - 1) = ((m.current - 1 : Nat) : Int) by omega, hw]

theorem taken_error {m : MemoryBank} (h : m.len < m.current) : m.taken = .error .keyError := by
  unfold MemoryBank.taken
  rw [show ((m.current : Int) - 1) = ((m.current - 1 : Nat) : Int) by omega,
    bank_word_error (by omega)]

theorem givenOut_append (l k : List Took) : givenOut (l ++ k) = givenOut l ++ givenOut k := by
  induction l with
  | nil => rfl
  | cons x l ih =>
    rcases x with ⟨i, (e | (_ | a))⟩ <;> simp [givenOut, ih]

theorem goneOn_append (l k : List Took) : goneOn (l ++ k) = goneOn l + goneOn k := by
  induction l with
  | nil => simp [goneOn]
  | cons x l ih =>
    rcases x with ⟨i, (e | (_ | a))⟩ <;> simp [goneOn, ih] <;> omega

theorem set_set_back {α : Type} {l : List α} {i : Nat} {x : α} (h : l[i]? = some x) (y : α) :
    (l.set i y).set i x = l := by
  rw [List.set_set]
  apply List.ext_getElem?
  intro j
  rw [List.getElem?_set]
  split
  · next hj =>
    subst hj
    rw [h]
    have : i < l.length := (List.getElem?_eq_some_iff.1 h).1
    simp [this]
  · rfl

/-- **C240** Threads that iterate over one bank share out its words: when no thread is within a call,
no word was given out twice, no call has raised anything but StopIteration, and once a call has
raised that, all words from the cursor on were given out. False: see `C240_refuted`. -/
def C240_statement : Prop :=
  ∀ (m : MemoryBank) (n : Nat) (schedule : List Nat), m.current ≤ m.len →
    ((Takers.start m n).run schedule).Quiet →
    (givenOut ((Takers.start m n).run schedule).done).Nodup ∧
    (∀ i e, (i, .error e) ∉ ((Takers.start m n).run schedule).done) ∧
    ((∃ i, (i, .ok none) ∈ ((Takers.start m n).run schedule).done) →
      ∀ a, m.current ≤ a → a < m.len → a ∈ givenOut ((Takers.start m n).run schedule).done)

/-- In every bank with two words left, two threads can be given the same word, and the one before
it no thread. -/
theorem C240_twice (m : MemoryBank) (h : m.current + 1 < m.len) :
    ((Takers.start m 2).run [0, 0, 0, 1, 1, 1, 0, 1]).Quiet ∧
    ((Takers.start m 2).run [0, 0, 0, 1, 1, 1, 0, 1]).done =
      [(0, .ok (some (m.current + 1))), (1, .ok (some (m.current + 1)))] := by
  have h1 : ¬ m.current ≥ m.len := by omega
  have h2 : ¬ m.current + 1 ≥ m.len := by omega
  have ht : MemoryBank.taken ⟨m.words, m.current + 1 + 1⟩ = .ok (some (m.current + 1)) := by
    have := taken_ok (m := ⟨m.words, m.current + 1 + 1⟩) (by simp)
      (by simp only [MemoryBank.len] at *; omega)
    simpa using this
  have hl : ∀ c, MemoryBank.len ⟨m.words, c⟩ = m.len := fun _ => rfl
  constructor <;>
    simp [Takers.run, Takers.start, Takers.step, Takers.Quiet, List.replicate, h1, h2, hl, ht]

/-- In every bank with one word left, a call can raise KeyError, and both calls can. -/
theorem C240_error (m : MemoryBank) (h : m.current + 1 = m.len) :
    ((Takers.start m 2).run [0, 1, 0, 0, 1, 1, 0, 1]).Quiet ∧
    ((Takers.start m 2).run [0, 1, 0, 0, 1, 1, 0, 1]).done =
      [(0, .error .keyError), (1, .error .keyError)] := by
  have h1 : ¬ m.current ≥ m.len := by omega
  have ht : MemoryBank.taken ⟨m.words, m.current + 1 + 1⟩ = .error .keyError :=
    taken_error (m := ⟨m.words, m.current + 1 + 1⟩) (by simp only [MemoryBank.len] at *; omega)
  constructor <;>
    simp [Takers.run, Takers.start, Takers.step, Takers.Quiet, List.replicate, h1, ht]

/-- In every bank with two words left, a thread can be given a word again after StopIteration was
raised: the other one has put the cursor back. -/
theorem C240_back (m : MemoryBank) (h : m.current + 2 = m.len) :
    ((Takers.start m 2).run [0, 0, 1, 1, 1, 1, 1, 1, 1, 1, 1, 0, 0, 1, 1, 1, 1]).Quiet ∧
    ((Takers.start m 2).run [0, 0, 1, 1, 1, 1, 1, 1, 1, 1, 1, 0, 0, 1, 1, 1, 1]).done =
      [(1, .ok (some m.current)), (1, .ok (some (m.current + 1))), (1, .ok none),
        (0, .ok (some m.current)), (1, .ok (some (m.current + 1)))] := by
  have h1 : ¬ m.current ≥ m.len := by omega
  have h2 : ¬ m.current + 1 ≥ m.len := by omega
  have h3 : m.current + 1 + 1 ≥ m.len := by omega
  have ht1 : MemoryBank.taken ⟨m.words, m.current + 1⟩ = .ok (some m.current) := by
    have := taken_ok (m := ⟨m.words, m.current + 1⟩) (by simp)
      (by simp only [MemoryBank.len] at *; omega)
    simpa using this
  have ht : MemoryBank.taken ⟨m.words, m.current + 1 + 1⟩ = .ok (some (m.current + 1)) := by
    have := taken_ok (m := ⟨m.words, m.current + 1 + 1⟩) (by simp)
      (by simp only [MemoryBank.len] at *; omega)
    simpa using this
  have hl : ∀ c, MemoryBank.len ⟨m.words, c⟩ = m.len := fun _ => rfl
  constructor <;>
    simp [Takers.run, Takers.start, Takers.step, Takers.Quiet, List.replicate, h1, h2, h3, hl, ht,
      ht1]

/-- A bank of two words is enough: the second is given out twice and the first not at all. -/
theorem C240_refuted : ¬ C240_statement := by
  intro h
  have hd := C240_twice (zeroBank 2 0) (by decide)
  have := (h (zeroBank 2 0) 2 _ (by decide) hd.1).1
  rw [hd.2] at this
  simp [givenOut] at this

example : ∃ m, MemoryBank.init = .ok m ∧ m.current + 1 < m.len := by
  refine ⟨_, rfl, ?_⟩
  show 0 + 1 < (List.replicate MemoryBank.BANK_SIZE _).length
  rw [List.length_replicate]
  decide

example : (zeroBank 3 2).current + 1 =
    (zeroBank 3 2).len := by decide

example : (zeroBank 2 0).current + 2 = (zeroBank 2 0).len := by decide

/-- A call that no step of another thread comes into is that of `MemoryBank.next`. -/
theorem C240_alone (s : Takers) (i : Nat) (h : s.threads[i]? = some .before) :
    s.run (List.replicate (if s.bank.current ≥ s.bank.len then 1 else 4) i) =
      { s with bank := s.bank.next.1, done := s.done ++ [(i, .ok s.bank.next.2)] } := by
  have hi : i < s.threads.length := (List.getElem?_eq_some_iff.1 h).1
  unfold MemoryBank.next
  by_cases hc : s.bank.current ≥ s.bank.len
  · simp [hc, Takers.run, Takers.step, h]
  · have ht : MemoryBank.taken ⟨s.bank.words, s.bank.current + 1⟩ = .ok (some s.bank.current) := by
      have := taken_ok (m := ⟨s.bank.words, s.bank.current + 1⟩) (by simp)
        (by simp only [MemoryBank.len] at *; omega)
      simpa using this
    have h' : s.threads[i] = .before := (List.getElem?_eq_some_iff.1 h).2
    have hb := set_set_back h .before
    rw [List.set_set] at hb
    simp [hc, Takers.run, Takers.step, h', List.replicate, hi, ht, hb]

example : (Takers.start (zeroBank 2 0) 3).threads[2]? = some .before := by decide

/-! ### Any schedule -/

/-- What holds after any steps of threads on bank `m`. -/
def TakersInv (m : MemoryBank) (n : Nat) (s : Takers) : Prop :=
  s.bank.words = m.words ∧ s.threads.length = n ∧ m.current ≤ s.bank.current ∧
  (∀ c, Taking.read c ∈ s.threads → m.current ≤ c) ∧
  (Taking.moved ∈ s.threads → m.current < s.bank.current) ∧
  (∀ a ∈ givenOut s.done, m.current ≤ a ∧ a < m.len) ∧
  (∀ i e, (i, .error e) ∈ s.done → e = .keyError)

theorem mem_set_cases {α : Type} {l : List α} {i : Nat} {x y : α} (h : y ∈ l.set i x) :
    y = x ∨ y ∈ l := by
  rcases List.mem_or_eq_of_mem_set h with h | h
  · exact .inr h
  · exact .inl h

theorem takersInv_step {m : MemoryBank} {n : Nat} {s : Takers} (h : TakersInv m n s) (i : Nat) :
    TakersInv m n (s.step i) := by
  obtain ⟨hw, hn, hc, hr, hm, hg, he⟩ := h
  unfold Takers.step
  split
  · exact ⟨hw, hn, hc, hr, hm, hg, he⟩
  · split
    · refine ⟨hw, hn, hc, hr, hm, ?_, ?_⟩
      · simpa [givenOut_append, givenOut] using hg
      · intro j e hj
        simp at hj
        exact he j e hj
    · refine ⟨hw, by simpa using hn, hc, ?_, ?_, hg, he⟩
      · intro c hcm
        rcases mem_set_cases hcm with h | h
        · cases h
        · exact hr c h
      · intro hmm
        rcases mem_set_cases hmm with h | h
        · cases h
        · exact hm h
  · refine ⟨hw, by simpa using hn, hc, ?_, ?_, hg, he⟩
    · intro c hcm
      rcases mem_set_cases hcm with h | h
      · cases h; exact hc
      · exact hr c h
    · intro hmm
      rcases mem_set_cases hmm with h | h
      · cases h
      · exact hm h
  · next c hcs =>
    have hcm := hr c (List.mem_of_getElem? hcs)
    refine ⟨hw, by simpa using hn, ?_, ?_, ?_, hg, he⟩
    · show m.current ≤ c + 1
      omega
    · intro c' hcm
      rcases mem_set_cases hcm with h | h
      · cases h
      · exact hr c' h
    · intro _
      show m.current < c + 1
      omega
  · next hms =>
    have hlt := hm (List.mem_of_getElem? hms)
    refine ⟨hw, by simpa using hn, hc, ?_, ?_, ?_, ?_⟩
    · intro c' hcm
      rcases mem_set_cases hcm with h | h
      · cases h
      · exact hr c' h
    · intro hmm
      rcases mem_set_cases hmm with h | h
      · cases h
      · exact hm h
    · have hl : s.bank.len = m.len := by simp [MemoryBank.len, hw]
      intro a ha
      rw [givenOut_append, List.mem_append] at ha
      rcases ha with ha | ha
      · exact hg a ha
      · rcases Nat.lt_or_ge s.bank.len s.bank.current with h1 | h1
        · rw [taken_error h1] at ha
          simp [givenOut] at ha
        · rw [taken_ok (by omega) h1] at ha
          simp [givenOut] at ha
          omega
    · intro j e hj
      rw [List.mem_append] at hj
      rcases hj with hj | hj
      · exact he j e hj
      · rcases Nat.lt_or_ge s.bank.len s.bank.current with h1 | h1
        · rw [taken_error h1] at hj
          simp at hj
          exact hj.2
        · rw [taken_ok (by omega) h1] at hj
          simp at hj

theorem takersInv_run {m : MemoryBank} {n : Nat} (schedule : List Nat) :
    ∀ {s : Takers}, TakersInv m n s → TakersInv m n (s.run schedule) := by
  induction schedule with
  | nil => intro s h; exact h
  | cons i l ih =>
    intro s h
    exact ih (takersInv_step h i)

theorem takersInv_start (m : MemoryBank) (n : Nat) : TakersInv m n (Takers.start m n) := by
  refine ⟨rfl, by simp [Takers.start], Nat.le_refl _, ?_, ?_, ?_, ?_⟩ <;>
    simp [Takers.start, givenOut]

/-- What is left of C240 for any schedule: no word of the bank is changed, only words from the
cursor on are given out, and no exception but KeyError and StopIteration is raised. -/
theorem C240_words_partial (m : MemoryBank) (n : Nat) (schedule : List Nat) :
    ((Takers.start m n).run schedule).bank.words = m.words ∧
    (∀ a ∈ givenOut ((Takers.start m n).run schedule).done, m.current ≤ a ∧ a < m.len) ∧
    ∀ i e, (i, .error e) ∈ ((Takers.start m n).run schedule).done → e = .keyError := by
  obtain ⟨hw, _, _, _, _, hg, he⟩ := takersInv_run schedule (takersInv_start m n)
  exact ⟨hw, hg, he⟩

example : givenOut ((Takers.start (zeroBank 3 1) 2).run [0, 0, 0, 1, 1, 1, 0, 1]).done = [2, 2]
    := by decide +kernel

/-! ### The end of the iteration -/

/-- What a thread not within a call can still add at cursor `x` of `k` words. -/
def idleWeight (n k x : Nat) : Nat := if x < k then 1 + takeBound n (k - (x + 1)) else 0

/-- What a thread has added that does not depend on the cursor. -/
def fixedWeight (n k : Nat) : Taking → Nat
  | .before => 0
  | .passed => 1
  | .read c => 1 + takeBound n (k - (c + 1))
  | .moved => 1

/-- What a thread has added and can still add. -/
def fullWeight (n k x : Nat) : Taking → Nat
  | .before => idleWeight n k x
  | .passed => 1 + takeBound n (k - (x + 1))
  | .read c => 1 + takeBound n (k - (c + 1))
  | .moved => 1 + idleWeight n k x

theorem takeBound_idle (n k x : Nat) : takeBound n (k - x) = n * idleWeight n k x := by
  unfold idleWeight
  split
  · rw [show k - x = (k - (x + 1)) + 1 by omega]
    rfl
  · rw [show k - x = 0 by omega]
    simp [takeBound]

theorem fixed_le_full (n k x : Nat) (t : Taking) : fixedWeight n k t ≤ fullWeight n k x t := by
  cases t <;> simp [fixedWeight, fullWeight]

theorem full_le_fixed (n k x : Nat) (t : Taking) :
    fullWeight n k x t ≤ fixedWeight n k t + idleWeight n k x := by
  cases t
  · simp [fixedWeight, fullWeight]
  · simp only [fixedWeight, fullWeight, idleWeight]
    split
    · omega
    · rw [show k - (x + 1) = 0 by omega]
      simp [takeBound]
  · simp [fixedWeight, fullWeight]
  · simp [fixedWeight, fullWeight]

theorem sum_fixed_le (n k x : Nat) (l : List Taking) :
    (l.map (fixedWeight n k)).sum ≤ (l.map (fullWeight n k x)).sum := by
  induction l with
  | nil => simp
  | cons t l ih =>
    have := fixed_le_full n k x t
    simp only [List.map_cons, List.sum_cons]
    omega

theorem sum_full_le (n k x : Nat) (l : List Taking) :
    (l.map (fullWeight n k x)).sum ≤
      (l.map (fixedWeight n k)).sum + l.length * idleWeight n k x := by
  induction l with
  | nil => simp
  | cons t l ih =>
    have := full_le_fixed n k x t
    simp only [List.map_cons, List.sum_cons, List.length_cons, Nat.succ_mul]
    omega

theorem sum_map_set {α : Type} (f : α → Nat) {l : List α} {i : Nat} {x : α} (y : α)
    (h : l[i]? = some x) : ((l.set i y).map f).sum + f x = (l.map f).sum + f y := by
  induction l generalizing i with
  | nil => simp at h
  | cons z l ih =>
    cases i with
    | zero =>
      simp at h
      subst h
      simp only [List.set_cons_zero, List.map_cons, List.sum_cons]
      omega
    | succ i =>
      have := ih (i := i) (by simpa using h)
      simp only [List.set_cons_succ, List.map_cons, List.sum_cons]
      omega

/-- All that has gone on and can still go on. -/
def totalWeight (n k : Nat) (s : Takers) : Nat :=
  goneOn s.done + (s.threads.map (fullWeight n k s.bank.current)).sum

theorem goneOn_taken (m : MemoryBank) (i : Nat) : goneOn [(i, m.taken)] = 1 := by
  unfold MemoryBank.taken
  split <;> simp [goneOn]

theorem totalWeight_step (s : Takers) (i : Nat) :
    totalWeight s.threads.length s.bank.len (s.step i) ≤
      totalWeight s.threads.length s.bank.len s := by
  unfold Takers.step totalWeight
  split
  · exact Nat.le_refl _
  · next hs =>
    split
    · simp [goneOn_append, goneOn]
    · next hc =>
      have := sum_map_set (fullWeight s.threads.length s.bank.len s.bank.current) .passed hs
      have hi : idleWeight s.threads.length s.bank.len s.bank.current =
          1 + takeBound s.threads.length (s.bank.len - (s.bank.current + 1)) := by
        unfold idleWeight
        rw [if_pos (by omega)]
      simp only [fullWeight, hi] at this
      dsimp only
      omega
  · next hs =>
    have := sum_map_set (fullWeight s.threads.length s.bank.len s.bank.current)
      (.read s.bank.current) hs
    simp only [fullWeight] at *
    omega
  · next c hs =>
    have h1 := sum_full_le s.threads.length s.bank.len (c + 1) (s.threads.set i .moved)
    have h2 := sum_map_set (fixedWeight s.threads.length s.bank.len) .moved hs
    have h3 := sum_fixed_le s.threads.length s.bank.len s.bank.current s.threads
    have h4 := takeBound_idle s.threads.length s.bank.len (c + 1)
    rw [List.length_set] at h1
    simp only [fixedWeight] at h2
    simp only
    omega
  · next hs =>
    have := sum_map_set (fullWeight s.threads.length s.bank.len s.bank.current) .before hs
    have hg := goneOn_taken s.bank i
    rw [goneOn_append]
    simp only [fullWeight] at *
    omega

theorem totalWeight_run {m : MemoryBank} {n : Nat} (schedule : List Nat) :
    ∀ {s : Takers}, TakersInv m n s →
      totalWeight n m.len (s.run schedule) ≤ totalWeight n m.len s := by
  induction schedule with
  | nil => intro s _; exact Nat.le_refl _
  | cons i l ih =>
    intro s h
    have h1 := ih (takersInv_step h i)
    have h2 := totalWeight_step s i
    rw [h.2.1, show s.bank.len = m.len by simp [MemoryBank.len, h.1]] at h2
    exact Nat.le_trans h1 h2

/-- What is left of C240 for any schedule: the iteration ends. Whatever the schedule, there is a
number of calls after which all raise StopIteration; it depends on the numbers of threads and of
words left only, and for one thread it is the number of words left. -/
theorem C240_ends_partial (m : MemoryBank) (n : Nat) (schedule : List Nat) :
    goneOn ((Takers.start m n).run schedule).done ≤ takeBound n (m.len - m.current) ∧
    takeBound 1 (m.len - m.current) = m.len - m.current := by
  constructor
  · have h1 := totalWeight_run schedule (takersInv_start m n)
    have h2 : totalWeight n m.len (Takers.start m n) = takeBound n (m.len - m.current) := by
      rw [takeBound_idle]
      simp [totalWeight, Takers.start, goneOn, fullWeight]
    have h3 : goneOn ((Takers.start m n).run schedule).done ≤
        totalWeight n m.len ((Takers.start m n).run schedule) := by
      unfold totalWeight
      omega
    omega
  · generalize m.len - m.current = k
    induction k with
    | zero => rfl
    | succ k ih => simp only [takeBound, ih]; omega

example : goneOn ((Takers.start (zeroBank 2 0) 2).run
      [0, 0, 1, 1, 1, 1, 1, 1, 1, 1, 1, 0, 0, 1, 1, 1, 1]).done = 4 ∧ takeBound 2 2 = 6 := by
  decide +kernel

/-! ### Threads that take turns -/

/-- What holds while threads take turns: the words before the cursor were given out in order, but
for the one of the call that has moved the cursor and not returned. -/
def InTurnInv (m : MemoryBank) (s : Takers) : Prop :=
  s.bank.words = m.words ∧ m.current ≤ s.bank.current ∧ s.bank.current ≤ m.len ∧
  (∀ i e, (i, .error e) ∉ s.done) ∧
  ((∃ i, (i, .ok none) ∈ s.done) → s.bank.current = m.len) ∧
  (∀ (i j : Nat) (t u : Taking), s.threads[i]? = some t → s.threads[j]? = some u →
    t ≠ .before → u ≠ .before → i = j) ∧
  (Taking.passed ∈ s.threads → s.bank.current < m.len) ∧
  (∀ c, Taking.read c ∈ s.threads → c = s.bank.current ∧ s.bank.current < m.len) ∧
  (Taking.moved ∈ s.threads → m.current < s.bank.current) ∧
  givenOut s.done ++ (if Taking.moved ∈ s.threads then [s.bank.current - 1] else []) =
    List.range' m.current (s.bank.current - m.current)

theorem only_set {l : List Taking} {i : Nat} {x y : Taking}
    (h : ∀ (j : Nat) (t : Taking), l[j]? = some t → t ≠ .before → j = i)
    (hy : y ∈ l.set i x) : y = x ∨ y = .before := by
  obtain ⟨j, hj⟩ := List.mem_iff_getElem?.1 hy
  rw [List.getElem?_set] at hj
  split at hj
  · split at hj
    · left; simpa using hj.symm
    · simp at hj
  · next hne =>
    right
    by_contra hb
    exact hne (h j y hj hb).symm

theorem only_set_pair {l : List Taking} {i : Nat} {x : Taking}
    (h : ∀ (j : Nat) (t : Taking), l[j]? = some t → t ≠ .before → j = i)
    (a b : Nat) (t u : Taking) (ha : (l.set i x)[a]? = some t) (hb : (l.set i x)[b]? = some u)
    (ht : t ≠ .before) (hu : u ≠ .before) : a = b := by
  have key : ∀ (a : Nat) (t : Taking), (l.set i x)[a]? = some t → t ≠ .before → a = i := by
    intro a t ha ht
    by_contra hne
    rw [List.getElem?_set_ne (fun h => hne h.symm)] at ha
    exact hne (h a t ha ht)
  rw [key a t ha ht, key b u hb hu]

theorem inTurnInv_step {m : MemoryBank} {s : Takers} (h : InTurnInv m s) (i : Nat)
    (ho : ∀ (j : Nat) (t : Taking), s.threads[j]? = some t → t ≠ .before → j = i) :
    InTurnInv m (s.step i) := by
  obtain ⟨hw, hc, hl, he, hz, hp, hpa, hr, hm, hg⟩ := h
  have hlen : s.bank.len = m.len := by simp [MemoryBank.len, hw]
  unfold Takers.step
  split
  · exact ⟨hw, hc, hl, he, hz, hp, hpa, hr, hm, hg⟩
  · next hs =>
    split
    · next hge =>
      refine ⟨hw, hc, hl, ?_, ?_, hp, hpa, hr, hm, ?_⟩
      · intro j e hj
        simp at hj
        exact he j e hj
      · intro _
        show s.bank.current = m.len
        omega
      · simpa [givenOut_append, givenOut] using hg
    · next hlt =>
      have hnm : Taking.moved ∉ s.threads := by
        intro hmm
        obtain ⟨j, hj⟩ := List.mem_iff_getElem?.1 hmm
        have := ho j _ hj (by simp)
        subst this
        rw [hs] at hj
        cases hj
      have hnm' : Taking.moved ∉ s.threads.set i .passed := by
        intro hmm
        rcases only_set ho hmm with h | h <;> cases h
      refine ⟨hw, hc, hl, he, hz, only_set_pair ho, ?_, ?_, ?_, ?_⟩
      · intro _
        show s.bank.current < m.len
        omega
      · intro c hcm
        rcases only_set ho hcm with h | h <;> cases h
      · intro hmm
        exact absurd hmm hnm'
      · rw [if_neg hnm] at hg
        rw [if_neg hnm']
        exact hg
  · next hs =>
    have hlt := hpa (List.mem_of_getElem? hs)
    have hnm : Taking.moved ∉ s.threads := by
      intro hmm
      obtain ⟨j, hj⟩ := List.mem_iff_getElem?.1 hmm
      have := ho j _ hj (by simp)
      subst this
      rw [hs] at hj
      cases hj
    have hnm' : Taking.moved ∉ s.threads.set i (.read s.bank.current) := by
      intro hmm
      rcases only_set ho hmm with h | h <;> cases h
    refine ⟨hw, hc, hl, he, hz, only_set_pair ho, ?_, ?_, ?_, ?_⟩
    · intro hcm
      exact hlt
    · intro c hcm
      rcases only_set ho hcm with h | h
      · cases h; exact ⟨rfl, hlt⟩
      · cases h
    · intro hmm
      exact absurd hmm hnm'
    · rw [if_neg hnm] at hg
      rw [if_neg hnm']
      exact hg
  · next c hs =>
    obtain ⟨rfl, hlt⟩ := hr c (List.mem_of_getElem? hs)
    have hi : i < s.threads.length := (List.getElem?_eq_some_iff.1 hs).1
    have hnm : Taking.moved ∉ s.threads := by
      intro hmm
      obtain ⟨j, hj⟩ := List.mem_iff_getElem?.1 hmm
      have := ho j _ hj (by simp)
      subst this
      rw [hs] at hj
      cases hj
    have hmv : Taking.moved ∈ s.threads.set i .moved := List.mem_set hi .moved
    refine ⟨hw, ?_, ?_, he, ?_, only_set_pair ho, ?_, ?_, ?_, ?_⟩
    · show m.current ≤ s.bank.current + 1
      omega
    · show s.bank.current + 1 ≤ m.len
      omega
    · intro hex
      have := hz hex
      omega
    · intro hcm
      rcases only_set ho hcm with h | h <;> cases h
    · intro c hcm
      rcases only_set ho hcm with h | h <;> cases h
    · intro _
      show m.current < s.bank.current + 1
      omega
    · rw [if_neg hnm, List.append_nil] at hg
      rw [if_pos hmv, hg]
      show _ ++ [s.bank.current + 1 - 1] = List.range' m.current (s.bank.current + 1 - m.current)
      rw [show s.bank.current + 1 - m.current = (s.bank.current - m.current) + 1 by omega,
        List.range'_concat]
      congr 2
      omega
  · next hs =>
    have hmm := List.mem_of_getElem? hs
    have hlt := hm hmm
    have ht : s.bank.taken = .ok (some (s.bank.current - 1)) := taken_ok (by omega) (by omega)
    have hnm' : Taking.moved ∉ s.threads.set i .before := by
      intro hmm
      rcases only_set ho hmm with h | h <;> cases h
    refine ⟨hw, hc, hl, ?_, ?_, only_set_pair ho, ?_, ?_, ?_, ?_⟩
    · intro j e hj
      rw [ht, List.mem_append] at hj
      rcases hj with hj | hj
      · exact he j e hj
      · simp at hj
    · rintro ⟨j, hj⟩
      rw [ht, List.mem_append] at hj
      rcases hj with hj | hj
      · exact hz ⟨j, hj⟩
      · simp at hj
    · intro hcm
      rcases only_set ho hcm with h | h <;> cases h
    · intro c hcm
      rcases only_set ho hcm with h | h <;> cases h
    · intro hcm
      exact absurd hcm hnm'
    · rw [if_pos hmm] at hg
      rw [if_neg hnm', List.append_nil, givenOut_append, ht]
      exact hg

theorem inTurnInv_run {m : MemoryBank} (schedule : List Nat) :
    ∀ {s : Takers}, InTurnInv m s → InTurn s schedule → InTurnInv m (s.run schedule) := by
  induction schedule with
  | nil => intro s h _; exact h
  | cons i l ih =>
    intro s h ht
    exact ih (inTurnInv_step h i ht.1) ht.2

theorem inTurnInv_start {m : MemoryBank} (n : Nat) (h : m.current ≤ m.len) :
    InTurnInv m (Takers.start m n) := by
  refine ⟨rfl, Nat.le_refl _, h, ?_, ?_, ?_, ?_, ?_, ?_, ?_⟩
  · simp [Takers.start]
  · simp [Takers.start]
  · intro i j t u hi hj ht
    have := List.mem_of_getElem? hi
    simp [Takers.start] at this
    exact absurd this.2 ht
  · simp [Takers.start]
  · simp [Takers.start]
  · simp [Takers.start]
  · simp [Takers.start, givenOut]

/-- C240 for threads of which none makes a step while another one is within a call, as with a lock:
the words are given out in order, from the cursor up to where it is then. -/
theorem C240_in_turn_partial (m : MemoryBank) (n : Nat) (schedule : List Nat)
    (h : m.current ≤ m.len) (ht : InTurn (Takers.start m n) schedule)
    (hq : ((Takers.start m n).run schedule).Quiet) :
    givenOut ((Takers.start m n).run schedule).done =
      List.range' m.current (((Takers.start m n).run schedule).bank.current - m.current) ∧
    (∀ i e, (i, .error e) ∉ ((Takers.start m n).run schedule).done) ∧
    ((∃ i, (i, .ok none) ∈ ((Takers.start m n).run schedule).done) →
      givenOut ((Takers.start m n).run schedule).done =
        List.range' m.current (m.len - m.current)) := by
  obtain ⟨_, _, _, he, hz, _, _, _, _, hg⟩ := inTurnInv_run schedule (inTurnInv_start n h) ht
  have hnm : Taking.moved ∉ ((Takers.start m n).run schedule).threads := by
    intro hm
    cases hq _ hm
  rw [if_neg hnm, List.append_nil] at hg
  refine ⟨hg, he, fun hex => ?_⟩
  rw [hg, hz hex]

example : let m : MemoryBank := zeroBank 3 1
    InTurn (Takers.start m 2) [1, 1, 1, 1, 0, 0, 0, 0, 1] ∧
    ((Takers.start m 2).run [1, 1, 1, 1, 0, 0, 0, 0, 1]).Quiet ∧
    ((Takers.start m 2).run [1, 1, 1, 1, 0, 0, 0, 0, 1]).done =
      [(1, .ok (some 1)), (0, .ok (some 2)), (1, .ok none)] := by
  refine ⟨?_, by decide +kernel, rfl⟩
  simp only [InTurn]
  refine ⟨?_, ?_, ?_, ?_, ?_, ?_, ?_, ?_, ?_, trivial⟩ <;>
  · intro j t hj hb
    rcases j with _ | _ | j <;>
      simp [zeroBank, Takers.start, Takers.step, MemoryBank.len, List.replicate] at hj <;> simp_all

/-- C240 for one thread. -/
theorem C240_one_thread_partial (m : MemoryBank) (k : Nat) (h : m.current ≤ m.len)
    (hq : ((Takers.start m 1).run (List.replicate k 0)).Quiet) :
    givenOut ((Takers.start m 1).run (List.replicate k 0)).done =
      List.range' m.current
        (((Takers.start m 1).run (List.replicate k 0)).bank.current - m.current) ∧
    ∀ i e, (i, .error e) ∉ ((Takers.start m 1).run (List.replicate k 0)).done := by
  have key : ∀ (k : Nat) (s : Takers), s.threads.length = 1 → InTurn s (List.replicate k 0) := by
    intro k
    induction k with
    | zero => intro s _; trivial
    | succ k ih =>
      intro s hs
      refine ⟨?_, ih _ ?_⟩
      · intro j t hj _
        have := (List.getElem?_eq_some_iff.1 hj).1
        omega
      · unfold Takers.step
        split <;> try split
        all_goals simp [hs]
  have := C240_in_turn_partial m 1 (List.replicate k 0) h (key k _ (by simp [Takers.start])) hq
  exact ⟨this.1, this.2.1⟩

example : ((Takers.start (zeroBank 3 1) 1).run (List.replicate 9 0)).Quiet := by
  decide +kernel

end H800
