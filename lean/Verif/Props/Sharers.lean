import Verif.Spec.Sharers

/-!
Property C241: threads that read and write one bank.
-/

namespace H800

open Spec

/-! ### One step -/

theorem bank_set_cases (m : MemoryBank) (a v : Int) :
    (m.set a v = (m, .error .keyError) ∧ (a < 0 ∨ m.words[a.toNat]? = none)) ∨
    ∃ w, 0 ≤ a ∧ m.words[a.toNat]? = some w ∧
      m.set a v = ({ m with words := m.words.set a.toNat (w.setValue v).1 }, (w.setValue v).2) := by
  unfold MemoryBank.set MemoryBank.word
  by_cases h : a < 0
  · left
    simp [h]
  · rw [if_neg h]
    cases hw : m.words[a.toNat]? with
    | none => left; simp
    | some w => right; exact ⟨w, by omega, rfl, by simp⟩

theorem bank_get_cases (m : MemoryBank) (a : Int) :
    (m.get a = .error .keyError ∧ (a < 0 ∨ m.words[a.toNat]? = none)) ∨
    ∃ w, 0 ≤ a ∧ m.words[a.toNat]? = some w ∧ m.get a = .ok w.value := by
  unfold MemoryBank.get MemoryBank.word
  by_cases h : a < 0
  · left
    simp [h, bind, Except.bind]
  · rw [if_neg h]
    cases hw : m.words[a.toNat]? with
    | none => left; simp [bind, Except.bind]
    | some w => right; exact ⟨w, by omega, rfl, rfl⟩

theorem word_setValue_cases (w : Word) (v : Int) :
    ((w.setValue v).2 = .ok () ∧ (w.setValue v).1.value = v) ∨
    (∃ e, (w.setValue v).2 = .error e) ∧ (w.setValue v).1 = w := by
  unfold Word.setValue BitField.setValue
  by_cases h : v < 0 ∨ v > 2 ^ 48 - 1
  · rw [if_pos h]
    right; exact ⟨⟨_, rfl⟩, rfl⟩
  · rw [if_neg h]
    rcases w.data.checkValue v none with e | _
    · right; exact ⟨⟨_, rfl⟩, rfl⟩
    · left; exact ⟨rfl, rfl⟩

/-- Touching word `a` changes that word only, and only an assignment does. -/
theorem touch_frame (m : MemoryBank) (a : Int) (c : BankCall) (k : Nat)
    (h : 0 ≤ a → k = a.toNat → ∃ as, c = .read as) :
    (c.touch m a).1.words[k]? = m.words[k]? := by
  cases c with
  | read as =>
    unfold BankCall.touch
    simp only
    split <;> rfl
  | fill v as =>
    unfold BankCall.touch
    simp only
    have key : (m.set a v).1.words[k]? = m.words[k]? := by
      rcases bank_set_cases m a v with ⟨h1, _⟩ | ⟨w, h0, _, h1⟩
      · rw [h1]
      · rw [h1]
        apply List.getElem?_set_ne
        intro hk
        obtain ⟨as', h'⟩ := h h0 hk.symm
        cases h'
    split
    · next h2 => rw [h2] at key; exact key
    · next h2 => rw [h2] at key; exact key

/-- What touching word `a` does depends on that word only. -/
theorem touch_local (m n : MemoryBank) (a : Int) (c : BankCall)
    (h : 0 ≤ a → m.words[a.toNat]? = n.words[a.toNat]?) :
    (c.touch m a).2 = (c.touch n a).2 ∧
    (0 ≤ a → (c.touch m a).1.words[a.toNat]? = (c.touch n a).1.words[a.toNat]?) := by
  cases c with
  | read as =>
    unfold BankCall.touch
    simp only
    rcases bank_get_cases m a with ⟨h1, h2⟩ | ⟨w, h0, hw, h1⟩ <;>
      rcases bank_get_cases n a with ⟨g1, g2⟩ | ⟨u, g0, gw, g1⟩ <;> rw [h1, g1]
    · exact ⟨rfl, h⟩
    · exfalso
      have := h g0
      rcases h2 with h2 | h2
      · omega
      · rw [this, gw] at h2; cases h2
    · exfalso
      have := h h0
      rcases g2 with h2 | h2
      · omega
      · rw [← this, hw] at h2; cases h2
    · have := h h0
      rw [hw, gw] at this
      cases this
      exact ⟨rfl, h⟩
  | fill v as =>
    have key : (m.set a v).2 = (n.set a v).2 ∧
        (0 ≤ a → (m.set a v).1.words[a.toNat]? = (n.set a v).1.words[a.toNat]?) := by
      rcases bank_set_cases m a v with ⟨h1, h2⟩ | ⟨w, h0, hw, h1⟩ <;>
        rcases bank_set_cases n a v with ⟨g1, g2⟩ | ⟨u, g0, gw, g1⟩ <;> rw [h1, g1]
      · exact ⟨rfl, h⟩
      · exfalso
        have := h g0
        rcases h2 with h2 | h2
        · omega
        · rw [this, gw] at h2; cases h2
      · exfalso
        have := h h0
        rcases g2 with h2 | h2
        · omega
        · rw [← this, hw] at h2; cases h2
      · have := h h0
        rw [hw, gw] at this
        cases this
        refine ⟨rfl, fun _ => ?_⟩
        have l1 := (List.getElem?_eq_some_iff.1 hw).1
        have l2 := (List.getElem?_eq_some_iff.1 gw).1
        simp [l1, l2]
    unfold BankCall.touch
    simp only
    rcases hm : m.set a v with ⟨m', (e | _)⟩ <;> rcases hn : n.set a v with ⟨n', (e' | _)⟩ <;>
      rw [hm, hn] at key <;> simp_all

/-- The word assigned holds the value or is not changed. -/
theorem touch_value (m : MemoryBank) (a : Int) (v : Int) (as : List Int) :
    ((BankCall.fill v as).touch m a).1.words[a.toNat]? = m.words[a.toNat]? ∨
    ∃ w, ((BankCall.fill v as).touch m a).1.words[a.toNat]? = some w ∧ w.value = v := by
  have key : (m.set a v).1.words[a.toNat]? = m.words[a.toNat]? ∨
      ∃ w, (m.set a v).1.words[a.toNat]? = some w ∧ w.value = v := by
    rcases bank_set_cases m a v with ⟨h1, h2⟩ | ⟨w, h0, hw, h1⟩
    · left; rw [h1]
    · rw [h1]
      have l1 := (List.getElem?_eq_some_iff.1 hw).1
      rcases word_setValue_cases w v with ⟨_, h3⟩ | ⟨_, h3⟩
      · right; exact ⟨_, by simp [l1], h3⟩
      · left; rw [h3]; simp [l1, (List.getElem?_eq_some_iff.1 hw).2]
  unfold BankCall.touch
  simp only
  rcases hm : m.set a v with ⟨m', (e | _)⟩ <;> rw [hm] at key <;> exact key

/-! ### Calls one after the other -/

/-- The rest of a call with nothing in between. -/
def finishCall (c : BankCall) : MemoryBank → List Int → List Int → MemoryBank × Py (List Int)
  | m, [], got => (m, .ok got)
  | m, a :: as, got =>
    match c.touch m a with
    | (m', .error e) => (m', .error e)
    | (m', .ok xs) => finishCall c m' as (got ++ xs)

theorem finishCall_fill (v : Int) (bs : List Int) (as : List Int) :
    ∀ (m : MemoryBank) (got : List Int), finishCall (.fill v bs) m as got =
      ((m.setList v as).1, (m.setList v as).2.map fun _ => got) := by
  induction as with
  | nil => intro m got; rfl
  | cons a as ih =>
    intro m got
    simp only [finishCall, BankCall.touch, MemoryBank.setList]
    rcases hm : m.set a v with ⟨m', (e | _)⟩
    · rfl
    · simp only [List.append_nil]
      rw [ih]

theorem finishCall_read (bs : List Int) (as : List Int) :
    ∀ (m : MemoryBank) (got : List Int), finishCall (.read bs) m as got =
      (m, (m.getList as).map fun xs => got ++ xs) := by
  induction as with
  | nil => intro m got; simp [finishCall, MemoryBank.getList, Except.map]
  | cons a as ih =>
    intro m got
    simp only [finishCall, BankCall.touch, MemoryBank.getList]
    rcases hm : m.get a with (e | x)
    · rfl
    · simp only
      rw [ih]
      rcases m.getList as with (e | xs)
      · rfl
      · simp [Except.map, bind, Except.bind, pure, Except.pure]

theorem finishCall_alone (c : BankCall) (m : MemoryBank) :
    finishCall c m c.addrs [] = BankCall.alone m c := by
  cases c with
  | fill v as => rw [finishCall_fill]; rfl
  | read as =>
    rw [finishCall_read]
    simp only [BankCall.addrs, BankCall.alone]
    rcases m.getList as with (e | xs) <;> rfl

theorem serialBank_append (m : MemoryBank) (l k : List (Nat × BankCall)) :
    serialBank m (l ++ k) = serialBank (serialBank m l) k := by
  induction l generalizing m with
  | nil => rfl
  | cons x l ih => exact ih _

theorem serialAnswers_append (m : MemoryBank) (l k : List (Nat × BankCall)) :
    serialAnswers m (l ++ k) = serialAnswers m l ++ serialAnswers (serialBank m l) k := by
  induction l generalizing m with
  | nil => rfl
  | cons x l ih =>
    show _ :: serialAnswers _ (l ++ k) = _
    rw [ih]
    rfl

/-- **C241** What threads that read and write one bank see and leave, when no thread is within a
call, could be that of their calls one after the other. False: see `C241_refuted`. -/
def C241_statement : Prop :=
  ∀ (m : MemoryBank) (progs : List (List BankCall)) (schedule : List Nat),
    ((Sharers.start m progs).run schedule).Calm →
    SerialBank m ((Sharers.start m progs).run schedule)

/-- A bank with the values given. -/
def bankOf (vs : List Int) : MemoryBank := ⟨vs.map fun v => ⟨⟨48, v, .msb1, .msbLeft⟩⟩, 0⟩

/-- What holds while no thread makes a step when another one is within a call. -/
def WithinInv (m : MemoryBank) (s : Sharers) : Prop :=
  ∃ order, serialAnswers m order = s.done ∧
    (s.Calm → s.bank = serialBank m order) ∧
    ∀ (i : Nat) (c : BankCall) (rest : List BankCall) (left got : List Int),
      s.threads[i]? = some ⟨c :: rest, some (left, got)⟩ →
      finishCall c s.bank left got = BankCall.alone (serialBank m order) c

theorem withinInv_step {m : MemoryBank} {s : Sharers} (h : WithinInv m s) (i : Nat)
    (ho : ∀ (j : Nat) (t : BankThread), s.threads[j]? = some t → t.within ≠ none → j = i) :
    WithinInv m (s.step i) := by
  obtain ⟨order, hd, hc, hw⟩ := h
  unfold Sharers.step
  cases hs : s.threads[i]? with
  | none => exact ⟨order, hd, hc, hw⟩
  | some t =>
    have hi := (List.getElem?_eq_some_iff.1 hs).1
    have others : ∀ (t' : BankThread) (j : Nat) (u : BankThread),
        (s.threads.set i t')[j]? = some u → u = t' ∨ u.within = none := by
      intro t' j u hj
      rw [List.getElem?_set] at hj
      split at hj
      · left; simpa using hj.symm
      · next hne =>
        right
        by_contra hb
        exact hne (ho j u hj hb).symm
    rcases t with ⟨todo, w⟩
    cases todo with
    | nil =>
      have : s.threads.set i (⟨[], w⟩ : BankThread) = s.threads := by
        have := List.set_getElem_self hi
        rw [(List.getElem?_eq_some_iff.1 hs).2] at this
        exact this
      simp only [BankThread.advance, this, Option.toList_none, List.map_nil, List.append_nil]
      exact ⟨order, hd, hc, hw⟩
    | cons c rest =>
      have hf : finishCall c s.bank (w.getD (c.addrs, [])).1 (w.getD (c.addrs, [])).2 =
          BankCall.alone (serialBank m order) c := by
        cases w with
        | some x => exact hw i c rest x.1 x.2 hs
        | none =>
          have : s.bank = serialBank m order := by
            apply hc
            intro u hu
            obtain ⟨j, hj⟩ := List.mem_iff_getElem?.1 hu
            by_contra hb
            have := ho j u hj hb
            subst this
            rw [hs] at hj
            cases hj
            exact hb rfl
          rw [this]
          exact finishCall_alone c _
      -- the call ends
      have close : ∀ (m' : MemoryBank) (r : Py (List Int)),
          BankCall.alone (serialBank m order) c = (m', r) →
          WithinInv m ⟨m', s.threads.set i ⟨rest, none⟩, s.done ++ [(i, c, r)]⟩ := by
        intro m' r hr
        refine ⟨order ++ [(i, c)], ?_, ?_, ?_⟩
        · rw [serialAnswers_append, hd]
          simp [serialAnswers, hr]
        · intro _
          rw [serialBank_append]
          simp [serialBank, hr]
        · intro j c' rest' left got hj
          rcases others _ j _ hj with h | h <;> cases h
      unfold BankThread.advance
      simp only
      rcases hg : w.getD (c.addrs, []) with ⟨left, got⟩
      rw [hg] at hf
      cases left with
      | nil =>
        exact close s.bank (.ok got) hf.symm
      | cons a as =>
        simp only [finishCall] at hf
        rcases ht : c.touch s.bank a with ⟨m', (e | xs)⟩
        · rw [ht] at hf
          simp only [ht]
          exact close m' (.error e) hf.symm
        · rw [ht] at hf
          simp only at hf
          by_cases has : as = []
          · subst has
            simp only [ht, if_true]
            exact close m' (.ok (got ++ xs)) hf.symm
          · simp only [ht, if_neg has]
            refine ⟨order, by simpa using hd, ?_, ?_⟩
            · intro hq
              have := hq ⟨c :: rest, some (as, got ++ xs)⟩ (List.mem_set hi _)
              cases this
            · intro j c' rest' left got' hj
              rcases others _ j _ hj with h | h
              · cases h
                exact hf
              · cases h

theorem withinInv_run {m : MemoryBank} (schedule : List Nat) :
    ∀ {s : Sharers}, WithinInv m s → OneWithin s schedule → WithinInv m (s.run schedule) := by
  induction schedule with
  | nil => intro s h _; exact h
  | cons i l ih =>
    intro s h ht
    exact ih (withinInv_step h i ht.1) ht.2

theorem sharers_start_thread {m : MemoryBank} {progs : List (List BankCall)} {i : Nat}
    {t : BankThread} (h : (Sharers.start m progs).threads[i]? = some t) :
    ∃ p, progs[i]? = some p ∧ t = ⟨p, none⟩ := by
  simp only [Sharers.start, List.getElem?_map, Option.map_eq_some_iff] at h
  obtain ⟨p, hp, rfl⟩ := h
  exact ⟨p, hp, rfl⟩

/-- C241 for threads of which none makes a step while another one is within a call, as with a
lock. -/
theorem C241_in_turn_partial (m : MemoryBank) (progs : List (List BankCall)) (schedule : List Nat)
    (ht : OneWithin (Sharers.start m progs) schedule)
    (hq : ((Sharers.start m progs).run schedule).Calm) :
    SerialBank m ((Sharers.start m progs).run schedule) := by
  have h0 : WithinInv m (Sharers.start m progs) := by
    refine ⟨[], rfl, fun _ => rfl, ?_⟩
    intro i c rest left got hi
    obtain ⟨p, _, hp⟩ := sharers_start_thread hi
    cases hp
  obtain ⟨order, hd, hc, _⟩ := withinInv_run schedule h0 ht
  exact ⟨order, (hc hq).symm, by rw [hd], fun i => by rw [hd]⟩

/-- All calls touch at most one word, and no thread is within one. -/
def SingleInv (s : Sharers) : Prop :=
  ∀ t ∈ s.threads, t.within = none ∧ ∀ c ∈ t.todo, c.addrs.length ≤ 1

theorem singleInv_step {s : Sharers} (h : SingleInv s) (i : Nat) : SingleInv (s.step i) := by
  unfold Sharers.step
  cases hs : s.threads[i]? with
  | none => exact h
  | some t =>
    have ht := h t (List.mem_of_getElem? hs)
    intro u hu
    rcases List.mem_or_eq_of_mem_set hu with hu | hu
    · exact h u hu
    · subst hu
      rcases t with ⟨todo, w⟩
      obtain ⟨rfl, hc⟩ := ht
      cases todo with
      | nil => exact ⟨rfl, hc⟩
      | cons c rest =>
        have hl := hc c (by simp)
        have hr : ∀ d ∈ rest, d.addrs.length ≤ 1 := fun d hd => hc d (by simp [hd])
        unfold BankThread.advance
        simp only [Option.getD_none]
        rcases hadd : c.addrs with _ | ⟨a, as⟩
        · exact ⟨rfl, hr⟩
        · have : as = [] := by
            rw [hadd] at hl
            simpa using hl
          subst this
          simp only [if_true]
          rcases c.touch s.bank a with ⟨m', (e | xs)⟩ <;> exact ⟨rfl, hr⟩

/-- C241 for calls that touch one word each: at any moment of any schedule. -/
theorem C241_single_partial (m : MemoryBank) (progs : List (List BankCall)) (schedule : List Nat)
    (h : ∀ p ∈ progs, ∀ c ∈ p, c.addrs.length ≤ 1) :
    ((Sharers.start m progs).run schedule).Calm ∧
    SerialBank m ((Sharers.start m progs).run schedule) := by
  have key : ∀ (schedule : List Nat) (s : Sharers), SingleInv s →
      SingleInv (s.run schedule) ∧ OneWithin s schedule := by
    intro schedule
    induction schedule with
    | nil => intro s h; exact ⟨h, trivial⟩
    | cons i l ih =>
      intro s h
      have := ih _ (singleInv_step h i)
      refine ⟨this.1, ?_, this.2⟩
      intro j t hj hn
      exact absurd (h t (List.mem_of_getElem? hj)).1 hn
  have h0 : SingleInv (Sharers.start m progs) := by
    intro t ht
    obtain ⟨i, hi⟩ := List.mem_iff_getElem?.1 ht
    obtain ⟨p, hp, rfl⟩ := sharers_start_thread hi
    exact ⟨rfl, h p (List.mem_of_getElem? hp)⟩
  obtain ⟨h1, h2⟩ := key schedule _ h0
  have hq : ((Sharers.start m progs).run schedule).Calm := fun t ht => (h1 t ht).1
  exact ⟨hq, C241_in_turn_partial m progs schedule h2 hq⟩

example : let progs : List (List BankCall) := [[.fill 7 [0], .read [1]], [.fill 8 [0], .read [0]]]
    (∀ p ∈ progs, ∀ c ∈ p, c.addrs.length ≤ 1) ∧
    ((Sharers.start (bankOf [0, 0]) progs).run [0, 1, 1, 0]).done =
      [(0, .fill 7 [0], .ok []), (1, .fill 8 [0], .ok []), (1, .read [0], .ok [8]),
        (0, .read [1], .ok [0])] := by
  refine ⟨by decide, rfl⟩

example : let progs : List (List BankCall) := [[.fill 7 [0, 1], .read [1]], [.fill 8 [0, 1]]]
    OneWithin (Sharers.start (bankOf [0, 0]) progs) [1, 1, 0, 0, 0] ∧
    ((Sharers.start (bankOf [0, 0]) progs).run [1, 1, 0, 0, 0]).Calm ∧
    ((Sharers.start (bankOf [0, 0]) progs).run [1, 1, 0, 0, 0]).bank = bankOf [7, 7] := by
  refine ⟨?_, by decide, rfl⟩
  simp only [OneWithin]
  refine ⟨?_, ?_, ?_, ?_, ?_, trivial⟩ <;>
  · intro j t hj hb
    match j with
    | 0 => first | rfl | (cases hj; exact absurd rfl hb)
    | 1 => first | rfl | (cases hj; exact absurd rfl hb)
    | j + 2 => cases hj

/-- Two threads that fill the same two words, with 1 and with 2, can leave 2 in one and 1 in the
other, and a thread that reads while another fills can read a word from before and one from
after, in the wrong order. -/
theorem C241_mixed :
    ((Sharers.start (bankOf [0, 0]) [[.fill 1 [0, 1]], [.fill 2 [0, 1]]]).run [0, 1, 1, 0]).Calm ∧
    ((Sharers.start (bankOf [0, 0]) [[.fill 1 [0, 1]], [.fill 2 [0, 1]]]).run [0, 1, 1, 0]).bank =
      bankOf [2, 1] ∧
    ((Sharers.start (bankOf [0, 0]) [[.fill 1 [0, 1]], [.read [0, 1]]]).run [1, 0, 0, 1]).Calm ∧
    ((Sharers.start (bankOf [0, 0]) [[.fill 1 [0, 1]], [.read [0, 1]]]).run [1, 0, 0, 1]).done =
      [(0, .fill 1 [0, 1], .ok []), (1, .read [0, 1], .ok [0, 1])] :=
  ⟨by decide, rfl, by decide, rfl⟩

/-- Neither order of the two fills leaves 2 and 1. -/
theorem C241_refuted : ¬ C241_statement := by
  intro h
  obtain ⟨hq, hb, _⟩ := C241_mixed
  obtain ⟨order, h1, h2, _⟩ := h _ _ _ hq
  have hd : ((Sharers.start (bankOf [0, 0]) [[.fill 1 [0, 1]], [.fill 2 [0, 1]]]).run
      [0, 1, 1, 0]).done = [(1, .fill 2 [0, 1], .ok []), (0, .fill 1 [0, 1], .ok [])] := rfl
  rw [hd] at h2
  rw [hb] at h1
  have hlen : ∀ (m : MemoryBank) (l : List (Nat × BankCall)),
      (serialAnswers m l).map (fun x => (x.1, x.2.1)) = l := by
    intro m l
    induction l generalizing m with
    | nil => rfl
    | cons x l ih => simp [serialAnswers, ih]
  have hp := h2.map (fun x => (x.1, x.2.1))
  rw [hlen] at hp
  have hl := hp.length_eq
  have m0 : (0, BankCall.fill 1 [0, 1]) ∈ order := hp.mem_iff.2 (by simp)
  have m1 : (1, BankCall.fill 2 [0, 1]) ∈ order := hp.mem_iff.2 (by simp)
  match order, hl with
  | [x, y], _ =>
    simp only [List.mem_cons, List.not_mem_nil, or_false] at m0 m1
    rcases m0 with rfl | rfl <;> rcases m1 with h | h <;> cases h <;> revert h1 <;> decide

/-! ### Threads apart -/

/-- The threads make calls of their programs. -/
def ProgInv (progs : List (List BankCall)) (s : Sharers) : Prop :=
  ∀ (j : Nat) (t : BankThread), s.threads[j]? = some t →
    ∃ p, progs[j]? = some p ∧ (∀ c ∈ t.todo, c ∈ p) ∧
      ∀ (c : BankCall) (rest : List BankCall), t.todo = c :: rest →
        ∀ a ∈ (t.within.getD (c.addrs, [])).1, a ∈ c.addrs

theorem advance_prog (m : MemoryBank) (t : BankThread) (p : List BankCall)
    (h1 : ∀ c ∈ t.todo, c ∈ p)
    (h2 : ∀ (c : BankCall) (rest : List BankCall), t.todo = c :: rest →
        ∀ a ∈ (t.within.getD (c.addrs, [])).1, a ∈ c.addrs) :
    (∀ c ∈ (t.advance m).2.1.todo, c ∈ p) ∧
    ∀ (c : BankCall) (rest : List BankCall), (t.advance m).2.1.todo = c :: rest →
        ∀ a ∈ ((t.advance m).2.1.within.getD (c.addrs, [])).1, a ∈ c.addrs := by
  rcases t with ⟨todo, w⟩
  cases todo with
  | nil => exact ⟨h1, h2⟩
  | cons c rest =>
    have hr : ∀ d ∈ rest, d ∈ p := fun d hd => h1 d (by simp [hd])
    have h2' := h2 c rest rfl
    have fresh : (∀ d ∈ rest, d ∈ p) ∧ ∀ (d : BankCall) (rest' : List BankCall), rest = d :: rest' →
        ∀ a ∈ d.addrs, a ∈ d.addrs := ⟨hr, fun _ _ _ _ h => h⟩
    unfold BankThread.advance
    simp only at h2' ⊢
    rcases hg : w.getD (c.addrs, []) with ⟨left, got⟩
    rw [hg] at h2'
    cases left with
    | nil => exact fresh
    | cons a as =>
      simp only
      rcases c.touch m a with ⟨m', (e | xs)⟩
      · exact fresh
      · simp only
        split
        · exact fresh
        · refine ⟨h1, ?_⟩
          intro d rest' hd b hb
          cases hd
          exact h2' b (by simp only [Option.getD_some] at hb; simp [hb])

theorem progInv_step {progs : List (List BankCall)} {s : Sharers} (h : ProgInv progs s) (i : Nat) :
    ProgInv progs (s.step i) := by
  unfold Sharers.step
  cases hs : s.threads[i]? with
  | none => exact h
  | some t =>
    intro j u hj
    simp only at hj
    rw [List.getElem?_set] at hj
    split at hj
    · next hij =>
      subst hij
      split at hj
      · simp only [Option.some.injEq] at hj
        subst hj
        obtain ⟨p, hp, h1, h2⟩ := h i t hs
        exact ⟨p, hp, advance_prog s.bank t p h1 h2⟩
      · cases hj
    · exact h j u hj

theorem progInv_start (m : MemoryBank) (progs : List (List BankCall)) :
    ProgInv progs (Sharers.start m progs) := by
  intro j t hj
  obtain ⟨p, hp, rfl⟩ := sharers_start_thread hj
  exact ⟨p, hp, fun _ h => h, fun _ _ _ _ h => h⟩

/-- A step of a thread changes no word that its calls do not assign. -/
theorem advance_frame (m : MemoryBank) (t : BankThread) (p : List BankCall)
    (h1 : ∀ c ∈ t.todo, c ∈ p)
    (h2 : ∀ (c : BankCall) (rest : List BankCall), t.todo = c :: rest →
        ∀ a ∈ (t.within.getD (c.addrs, [])).1, a ∈ c.addrs)
    (k : Nat) (hk : ∀ v, ¬ AssignsWord p v k) :
    (t.advance m).1.words[k]? = m.words[k]? := by
  rcases t with ⟨todo, w⟩
  cases todo with
  | nil => rfl
  | cons c rest =>
    have h2' := h2 c rest rfl
    have hcp := h1 c (by simp)
    unfold BankThread.advance
    simp only at h2' ⊢
    rcases hg : w.getD (c.addrs, []) with ⟨left, got⟩
    rw [hg] at h2'
    cases left with
    | nil => rfl
    | cons a as =>
      have := touch_frame m a c k (by
        intro h0 hka
        cases c with
        | read as => exact ⟨as, rfl⟩
        | fill v as' =>
          exfalso
          refine hk v ⟨as', hcp, ?_⟩
          rw [show (k : Int) = a by omega]
          exact h2' a (by simp))
      simp only
      rcases ht : c.touch m a with ⟨m', (e | xs)⟩ <;> rw [ht] at this
      · exact this
      · simp only
        split <;> exact this

/-- What a thread does depends on the words only that its calls touch. -/
theorem advance_local (m n : MemoryBank) (t : BankThread) (p : List BankCall)
    (h1 : ∀ c ∈ t.todo, c ∈ p)
    (h2 : ∀ (c : BankCall) (rest : List BankCall), t.todo = c :: rest →
        ∀ a ∈ (t.within.getD (c.addrs, [])).1, a ∈ c.addrs)
    (h : ∀ k : Nat, TouchesWord p k → m.words[k]? = n.words[k]?) :
    (t.advance m).2 = (t.advance n).2 ∧
    ∀ k : Nat, TouchesWord p k → (t.advance m).1.words[k]? = (t.advance n).1.words[k]? := by
  rcases t with ⟨todo, w⟩
  cases todo with
  | nil => exact ⟨rfl, h⟩
  | cons c rest =>
    have h2' := h2 c rest rfl
    have hcp := h1 c (by simp)
    unfold BankThread.advance
    simp only at h2' ⊢
    rcases hg : w.getD (c.addrs, []) with ⟨left, got⟩
    rw [hg] at h2'
    cases left with
    | nil => exact ⟨rfl, h⟩
    | cons a as =>
      have hl := touch_local m n a c (by
        intro h0
        apply h
        refine ⟨c, hcp, ?_⟩
        rw [show ((a.toNat : Nat) : Int) = a by omega]
        exact h2' a (by simp))
      have hk : ∀ k : Nat, TouchesWord p k →
          (c.touch m a).1.words[k]? = (c.touch n a).1.words[k]? := by
        intro k hk
        by_cases hka : 0 ≤ a ∧ k = a.toNat
        · rw [hka.2]; exact hl.2 hka.1
        · rw [touch_frame m a c k (fun h0 h' => absurd ⟨h0, h'⟩ hka),
            touch_frame n a c k (fun h0 h' => absurd ⟨h0, h'⟩ hka)]
          exact h k hk
      have h3 := hl.1
      simp only
      rcases hm : c.touch m a with ⟨m', (e | xs)⟩ <;> rcases hn : c.touch n a with ⟨n', (e' | ys)⟩ <;>
        rw [hm, hn] at h3 hk <;> simp only [reduceCtorEq] at h3
      · cases h3
        exact ⟨rfl, hk⟩
      · cases h3
        simp only
        split
        · exact ⟨rfl, hk⟩
        · exact ⟨rfl, hk⟩

/-- Thread `i` is as in the run `t`, in which it is alone. -/
def AloneInv (progs : List (List BankCall)) (i : Nat) (s t : Sharers) : Prop :=
  s.threads[i]? = t.threads[i]? ∧ s.done.filter (·.1 = i) = t.done ∧
  ∀ p, progs[i]? = some p → ∀ k : Nat, TouchesWord p k → s.bank.words[k]? = t.bank.words[k]?

theorem aloneInv_step {progs : List (List BankCall)} {i j : Nat} {s t : Sharers}
    (hap : ∀ (p q : List BankCall) (v a : Int), j ≠ i → progs[i]? = some p → progs[j]? = some q →
      AssignsWord q v a → ¬ TouchesWord p a)
    (hs : ProgInv progs s) (h : AloneInv progs i s t) :
    AloneInv progs i (s.step j) (if j = i then t.step i else t) := by
  obtain ⟨ht, hd, hk⟩ := h
  by_cases hji : j = i
  · subst hji
    rw [if_pos rfl]
    unfold Sharers.step
    cases hsj : s.threads[j]? with
    | none =>
      rw [← ht, hsj]
      exact ⟨ht, hd, hk⟩
    | some u =>
      rw [← ht, hsj]
      simp only
      obtain ⟨p, hp, h1, h2⟩ := hs j u hsj
      obtain ⟨e1, e2⟩ := advance_local s.bank t.bank u p h1 h2 (hk p hp)
      have l1 := (List.getElem?_eq_some_iff.1 hsj).1
      have l2 := (List.getElem?_eq_some_iff.1 (ht ▸ hsj)).1
      refine ⟨?_, ?_, ?_⟩
      · simp only [List.getElem?_set_self l1, List.getElem?_set_self l2, e1]
      · simp only [List.filter_append, hd, ← e1]
        congr 1
        apply List.filter_eq_self.2
        intro x hx
        simp only [List.mem_map] at hx
        obtain ⟨y, _, rfl⟩ := hx
        simp
      · intro p' hp'
        rw [hp] at hp'
        cases hp'
        exact e2
  · rw [if_neg hji]
    unfold Sharers.step
    cases hsj : s.threads[j]? with
    | none => exact ⟨ht, hd, hk⟩
    | some u =>
      obtain ⟨q, hq, h1, h2⟩ := hs j u hsj
      refine ⟨?_, ?_, ?_⟩
      · simp only
        rw [List.getElem?_set_ne hji]
        exact ht
      · simp only [List.filter_append, hd]
        have : (List.map (fun x => (j, x)) (u.advance s.bank).2.2.toList).filter
            (fun x => decide (x.1 = i)) = [] := by
          apply List.filter_eq_nil_iff.2
          intro x hx
          simp only [List.mem_map] at hx
          obtain ⟨y, _, rfl⟩ := hx
          simp [hji]
        rw [this, List.append_nil]
      · intro p hp k hkp
        simp only
        rw [advance_frame s.bank u q h1 h2 k (fun v hv => hap p q v k hji hp hq hv hkp)]
        exact hk p hp k hkp

/-- C241 for threads apart: if no thread assigns a word that another one touches, then at any
moment each thread is where it would be if it had been alone: its calls ended have returned the same,
and the words that it touches are the same. (Words that no thread assigns may be read by all.) -/
theorem C241_apart_partial (m : MemoryBank) (progs : List (List BankCall)) (schedule : List Nat)
    (hap : ∀ (i j : Nat) (p q : List BankCall) (v a : Int), j ≠ i → progs[i]? = some p →
      progs[j]? = some q → AssignsWord q v a → ¬ TouchesWord p a) (i : Nat) :
    ((Sharers.start m progs).run schedule).threads[i]? =
      ((Sharers.start m progs).run (schedule.filter (· = i))).threads[i]? ∧
    ((Sharers.start m progs).run schedule).done.filter (·.1 = i) =
      ((Sharers.start m progs).run (schedule.filter (· = i))).done ∧
    ∀ p, progs[i]? = some p → ∀ k : Nat, TouchesWord p k →
      ((Sharers.start m progs).run schedule).bank.words[k]? =
        ((Sharers.start m progs).run (schedule.filter (· = i))).bank.words[k]? := by
  have key : ∀ (schedule : List Nat) (s t : Sharers), ProgInv progs s → AloneInv progs i s t →
      AloneInv progs i (s.run schedule) (t.run (schedule.filter (· = i))) := by
    intro schedule
    induction schedule with
    | nil => intro s t _ h; exact h
    | cons j l ih =>
      intro s t hs h
      have := ih _ _ (progInv_step hs j) (aloneInv_step (hap i j) hs h)
      by_cases hji : j = i
      · subst hji
        simpa [Sharers.run] using this
      · simpa [Sharers.run, hji] using this
  exact key schedule _ _ (progInv_start m progs) ⟨rfl, rfl, fun _ _ _ _ => rfl⟩

example : let progs : List (List BankCall) :=
      [[.fill 7 [0, 1], .read [0, 4]], [.fill 8 [2, 3], .read [4, 2]]]
    ∀ (i j : Nat) (p q : List BankCall) (v a : Int), j ≠ i → progs[i]? = some p →
      progs[j]? = some q → AssignsWord q v a → ¬ TouchesWord p a := by
  intro progs i j p q v a hji hi hj
  rcases i with _ | _ | i <;> rcases j with _ | _ | j <;> simp [progs] at hi hj hji
  all_goals
    subst hi hj
    rintro ⟨as, hm, ha⟩ ⟨c, hc, hac⟩
    simp at hm hc
    obtain ⟨rfl, rfl⟩ := hm
    rcases hc with rfl | rfl <;> simp [BankCall.addrs] at ha hac <;> omega

/-! ### Any schedule -/

/-- Each word is as at first or holds a value that a call assigns to it. -/
def ValueInv (m : MemoryBank) (progs : List (List BankCall)) (s : Sharers) : Prop :=
  ∀ k : Nat, s.bank.words[k]? = m.words[k]? ∨
    ∃ w v p, s.bank.words[k]? = some w ∧ w.value = v ∧ p ∈ progs ∧ AssignsWord p v k

theorem advance_value (m : MemoryBank) (t : BankThread) (p : List BankCall)
    (h1 : ∀ c ∈ t.todo, c ∈ p)
    (h2 : ∀ (c : BankCall) (rest : List BankCall), t.todo = c :: rest →
        ∀ a ∈ (t.within.getD (c.addrs, [])).1, a ∈ c.addrs) (k : Nat) :
    (t.advance m).1.words[k]? = m.words[k]? ∨
    ∃ w v, (t.advance m).1.words[k]? = some w ∧ w.value = v ∧ AssignsWord p v k := by
  by_cases hk : ∀ v, ¬ AssignsWord p v k
  · exact .inl (advance_frame m t p h1 h2 k hk)
  rcases t with ⟨todo, w⟩
  cases todo with
  | nil => exact .inl rfl
  | cons c rest =>
    have h2' := h2 c rest rfl
    have hcp := h1 c (by simp)
    unfold BankThread.advance
    simp only at h2' ⊢
    rcases hg : w.getD (c.addrs, []) with ⟨left, got⟩
    rw [hg] at h2'
    cases left with
    | nil => exact .inl rfl
    | cons a as =>
      have : (c.touch m a).1.words[k]? = m.words[k]? ∨
          ∃ w v, (c.touch m a).1.words[k]? = some w ∧ w.value = v ∧ AssignsWord p v k := by
        by_cases hka : 0 ≤ a ∧ k = a.toNat
        · cases c with
          | read bs => exact .inl (touch_frame m a _ k fun _ _ => ⟨bs, rfl⟩)
          | fill v bs =>
            obtain ⟨h0, rfl⟩ := hka
            rcases touch_value m a v bs with h | ⟨w, hw, hv⟩
            · exact .inl h
            · refine .inr ⟨w, v, hw, hv, bs, hcp, ?_⟩
              rw [show ((a.toNat : Nat) : Int) = a by omega]
              exact h2' a (by simp)
        · exact .inl (touch_frame m a c k fun h0 h' => absurd ⟨h0, h'⟩ hka)
      simp only
      rcases ht : c.touch m a with ⟨m', (e | xs)⟩ <;> rw [ht] at this
      · exact this
      · simp only
        split <;> exact this

/-- What is left of C241 for any schedule: at any moment each word is as at first or holds a value
that a call assigns to it; a word is never a mixture of two values. -/
theorem C241_words_partial (m : MemoryBank) (progs : List (List BankCall)) (schedule : List Nat)
    (k : Nat) :
    ((Sharers.start m progs).run schedule).bank.words[k]? = m.words[k]? ∨
    ∃ w v p, ((Sharers.start m progs).run schedule).bank.words[k]? = some w ∧ w.value = v ∧
      p ∈ progs ∧ AssignsWord p v k := by
  have key : ∀ (schedule : List Nat) (s : Sharers), ProgInv progs s → ValueInv m progs s →
      ValueInv m progs (s.run schedule) := by
    intro schedule
    induction schedule with
    | nil => intro s _ h; exact h
    | cons i l ih =>
      intro s hs h
      refine ih _ (progInv_step hs i) ?_
      unfold Sharers.step
      cases hsi : s.threads[i]? with
      | none => exact h
      | some t =>
        intro k
        obtain ⟨p, hp, h1, h2⟩ := hs i t hsi
        rcases advance_value s.bank t p h1 h2 k with h3 | ⟨w, v, hw, hv, ha⟩
        · simp only [h3]
          exact h k
        · exact .inr ⟨w, v, p, hw, hv, List.mem_of_getElem? hp, ha⟩
  exact key schedule _ (progInv_start m progs) (fun k => .inl rfl) k

example : ((Sharers.start (bankOf [0, 0]) [[.fill 1 [0, 1]], [.fill 2 [0, 1]]]).run
    [0, 1, 1]).bank = bankOf [2, 2] := rfl

end H800
