import Verif.Props.EndToEnd
import Verif.Spec.Threads

/-!
Property C238: one bit-field used by several threads.
-/

namespace H800

open Spec

/-! ### What a call makes of the value that it has read -/

theorem newSlice_ends (b : BitField) (v x : Int) (s e : Option Int) :
    ((b.seen v).newSlice s e x).map (fun _ => ()) = (b.newSlice s e x).map (fun _ => ()) := by
  have h : ∀ u, (b.seen u).newSlice s e x = (do
      b.checkRange s e
      let (rstart, rend) ← b.getRange s e
      let width := rend - rstart + 1
      b.checkValue x (some width)
      let mask ← b.bitmask s e
      let sh := b.shift (b.lsbIndex rstart rend)
      let up ← shl x sh
      return Int.lor (Int.land u (b.maxval - mask)) up) := fun u => rfl
  have hb : b.newSlice s e x = (b.seen b.value).newSlice s e x := rfl
  rw [hb, h, h]
  cases b.checkRange s e with
  | error _ => rfl
  | ok _ =>
    cases b.getRange s e with
    | error _ => rfl
    | ok r =>
      simp only [py_bind_ok]
      cases b.checkValue x (some (r.2 - r.1 + 1)) with
      | error _ => rfl
      | ok _ =>
        cases b.bitmask s e with
        | error _ => rfl
        | ok m =>
          simp only [py_bind_ok]
          cases shl x (b.shift (b.lsbIndex r.1 r.2)) <;> rfl

theorem newIndex_ends (b : BitField) (v x i : Int) :
    ((b.seen v).newIndex i x).map (fun _ => ()) = (b.newIndex i x).map (fun _ => ()) := by
  have h : ∀ u, (b.seen u).newIndex i x = (do
      b.checkIndex (some i)
      b.checkValue x (some 1)
      let r := b.rindex i
      let sh := b.shift r
      let _ ← shl 1 sh
      if x = 1 then
        let up ← shl x sh
        return Int.lor u up
      else
        let m ← shl 1 sh
        return Int.land u (b.maxval - m)) := fun u => rfl
  have hb : b.newIndex i x = (b.seen b.value).newIndex i x := rfl
  rw [hb, h, h]
  cases b.checkIndex (some i) with
  | error _ => rfl
  | ok _ =>
    cases b.checkValue x (some 1) with
    | error _ => rfl
    | ok _ =>
      simp only [py_bind_ok]
      cases shl 1 (b.shift (b.rindex i)) with
      | error _ => rfl
      | ok _ =>
        simp only [py_bind_ok]
        split
        · cases shl x (b.shift (b.rindex i)) <;> rfl
        · rfl

theorem setitem_ends (b : BitField) (v x : Int) (k : Key) :
    ((b.seen v).setitem k x).2 = (b.setitem k x).2 := by
  have hk : ∀ r r' : Py Int, r.map (fun _ => ()) = r'.map (fun _ => ()) →
      (match r with
        | .ok w => ((({ b.seen v with value := w } : BitField), .ok ()) : BitField × Py Unit)
        | .error e => (b.seen v, .error e)).2 =
      (match r' with
        | .ok w => ((({ b with value := w } : BitField), .ok ()) : BitField × Py Unit)
        | .error e => (b, .error e)).2 := by
    intro r r' h
    cases r <;> cases r' <;> simp_all [Except.map]
  cases k with
  | idx i => exact hk _ _ (newIndex_ends b v x i)
  | slice s e => exact hk _ _ (newSlice_ends b v x s e)

/-- Whether an operation raises, and what, does not depend on the value of the field. -/
theorem op_ends (b : BitField) (v : Int) (o : BfOp) : (o.run (b.seen v)).2 = (o.run b).2 := by
  cases o with
  | setitem k x => exact setitem_ends b v x k
  | setValue x =>
    simp only [BfOp.run, BitField.setValue]
    have : (b.seen v).checkValue x none = b.checkValue x none := rfl
    rw [this]
    cases b.checkValue x none <;> rfl
  | set i =>
    simp only [BfOp.run, BitField.set]
    cases i with
    | none => rfl
    | some i =>
      simp only
      have : (b.seen v).checkIndex (some i) = b.checkIndex (some i) := rfl
      rw [this]
      split
      · rfl
      · cases b.checkIndex (some i) with
        | error _ => rfl
        | ok _ => exact setitem_ends b v 1 (.idx i)
  | clear i =>
    simp only [BfOp.run, BitField.clear]
    cases i with
    | none => rfl
    | some i =>
      simp only
      have : (b.seen v).checkIndex (some i) = b.checkIndex (some i) := rfl
      rw [this]
      split
      · rfl
      · cases b.checkIndex (some i) with
        | error _ => rfl
        | ok _ => exact setitem_ends b v 0 (.idx i)

theorem seen_self (b : BitField) : b.seen b.value = b := rfl

theorem seen_seen (b : BitField) (v w : Int) : (b.seen v).seen w = b.seen w := rfl

theorem run_config (b : BitField) (o : BfOp) :
    (o.run b).1 = b.seen (o.run b).1.value := by
  obtain ⟨-, h1, h2, h3⟩ := C12_failure_atomic b o
  generalize (o.run b).1 = c at *
  obtain ⟨w, x, n, r⟩ := c
  simp only at h1 h2 h3
  subst h1 h2 h3
  rfl

theorem bfRun_seen (b : BitField) (ops : List BfOp) : bfRun b ops = b.seen (bfRun b ops).value := by
  obtain ⟨h1, h2, h3⟩ := bfRun_shape ops b
  generalize bfRun b ops = c at *
  obtain ⟨w, x, n, r⟩ := c
  simp only at h1 h2 h3
  subst h1 h2 h3
  rfl

/-- An operation that has read `v` and does not raise leaves the field that it makes of one of that
value; one that raises leaves the field as it is. -/
theorem store_op (b : BitField) (v : Int) (o : BfOp) :
    FieldCall.store b v (.op o) = match (o.run b).2 with
      | .ok _ => (o.run (b.seen v)).1
      | .error _ => b := by
  simp only [FieldCall.store]
  rw [op_ends]
  cases (o.run b).2 with
  | error _ => rfl
  | ok _ => rw [run_config (b.seen v) o]; rfl

theorem store_seen (b : BitField) (v : Int) (c : FieldCall) (w : Int) :
    (c.store b v).seen w = b.seen w := by
  cases c with
  | op o => simp only [FieldCall.store]; split <;> rfl
  | get k => rfl
  | value => rfl

theorem store_value (b : BitField) (o : BfOp) :
    FieldCall.store b b.value (.op o) = (o.run b).1 := by
  rw [store_op, seen_self]
  split
  · rfl
  · rename_i e he; exact ((C12_failure_atomic b o).1 e he).symm

theorem store_blind (b : BitField) (v : Int) (o : BfOp) (h : Blind o) :
    FieldCall.store b v (.op o) = (o.run b).1 := by
  cases o with
  | setitem k x => exact h.elim
  | setValue x =>
    rw [store_op]
    simp only [BfOp.run, BitField.setValue]
    have : (b.seen v).checkValue x none = b.checkValue x none := rfl
    rw [this]
    cases b.checkValue x none <;> rfl
  | set i => rcases h with rfl | rfl <;> rfl
  | clear i => rcases h with rfl | rfl <;> rfl

theorem answer_tells (b : BitField) (v : Int) (c : FieldCall) :
    c.answer b v = FieldCall.tells (b.seen v) c := by
  cases c with
  | op o => simp only [FieldCall.answer, FieldCall.tells]; cases (o.run (b.seen v)).2 <;> rfl
  | get k => simp only [FieldCall.answer, FieldCall.tells]; cases (b.seen v).getitem k <;> rfl
  | value => rfl

theorem tells_op (b : BitField) (v : Int) (o : BfOp) :
    FieldCall.tells (b.seen v) (.op o) = FieldCall.tells b (.op o) := by
  simp only [FieldCall.tells]; rw [op_ends]

/-! ### Steps -/

theorem threads_step_cases (s : Threads) (i : Nat) :
    (s.step i = s ∧ ∀ t, s.threads[i]? = some t → t.todo = []) ∨
    (∃ c rest, s.threads[i]? = some ⟨c :: rest, none⟩ ∧
      s.step i = { s with threads := s.threads.set i ⟨c :: rest, some s.field.value⟩ }) ∨
    (∃ c rest v, s.threads[i]? = some ⟨c :: rest, some v⟩ ∧
      s.step i = { field := c.store s.field v
                   threads := s.threads.set i ⟨rest, none⟩
                   done := s.done ++ [(i, c, c.answer s.field v)] }) := by
  unfold Threads.step
  cases h : s.threads[i]? with
  | none => exact Or.inl ⟨rfl, by simp⟩
  | some t =>
    obtain ⟨todo, held⟩ := t
    cases todo with
    | nil => exact Or.inl ⟨rfl, by simp⟩
    | cons c rest =>
      cases held with
      | none => exact Or.inr (Or.inl ⟨c, rest, rfl, rfl⟩)
      | some v => exact Or.inr (Or.inr ⟨c, rest, v, rfl, rfl⟩)

/-- A thread after another one was changed. -/
theorem set_thread {l : List FieldThread} {i j : Nat} {t : FieldThread} (h : i ≠ j) :
    (l.set i t)[j]? = l[j]? := List.getElem?_set_ne h

theorem set_thread_self {l : List FieldThread} {i : Nat} {t t' : FieldThread} (h : l[i]? = some t') :
    (l.set i t)[i]? = some t := by
  obtain ⟨hi, -⟩ := List.getElem?_eq_some_iff.1 h
  rw [List.getElem?_set_self hi]

/-- What is kept by every step holds after every run. -/
theorem run_keeps (I : Threads → Prop) (hI : ∀ s i, I s → I (s.step i)) (schedule : List Nat) :
    ∀ s, I s → I (s.run schedule) := by
  induction schedule with
  | nil => intro s h; exact h
  | cons i l ih => intro s h; exact ih _ (hI s i h)

theorem start_thread {b : BitField} {progs : List (List FieldCall)} {i : Nat} {t : FieldThread}
    (h : (Threads.start b progs).threads[i]? = some t) : ∃ p, progs[i]? = some p ∧ t = ⟨p, none⟩ := by
  simp only [Threads.start, List.getElem?_map, Option.map_eq_some_iff] at h
  obtain ⟨p, hp, rfl⟩ := h
  exact ⟨p, hp, rfl⟩

/-! ### What is left in the field -/

theorem stored_append (l l' : List Ended) : stored (l ++ l') = stored l ++ stored l' := by
  induction l with
  | nil => rfl
  | cons x l ih =>
    obtain ⟨i, c, a⟩ := x
    rw [List.cons_append]
    cases c with
    | op o =>
      cases a with
      | error e => simp only [stored]; exact ih
      | ok r => simp only [stored, List.cons_append]; rw [ih]
    | get k => simp only [stored]; exact ih
    | value => simp only [stored]; exact ih

theorem bfRun_snoc (b : BitField) (ops : List BfOp) (o : BfOp) :
    bfRun b (ops ++ [o]) = (o.run (bfRun b ops)).1 := by
  simp [bfRun]

/-- What is known of every state of a run. -/
structure ThreadsKnown (b : BitField) (s : Threads) : Prop where
  left : ∃ kept, kept.Sublist (stored s.done) ∧ kept.getLast? = (stored s.done).getLast? ∧
    s.field = bfRun b kept
  held : ∀ (i : Nat) (t : FieldThread) (v : Int), s.threads[i]? = some t → t.held = some v →
    ∃ kept, kept.Sublist (stored s.done) ∧ v = (bfRun b kept).value
  answers : ∀ pre i c a post, s.done = pre ++ (i, c, a) :: post →
    ∃ kept, kept.Sublist (stored pre) ∧ a = FieldCall.tells (bfRun b kept) c

theorem known_start (b : BitField) (progs : List (List FieldCall)) :
    ThreadsKnown b (Threads.start b progs) where
  left := ⟨[], List.Sublist.refl _, rfl, rfl⟩
  held := by
    intro i t v h hv
    obtain ⟨p, -, rfl⟩ := start_thread h
    cases hv
  answers := by intro pre i c a post h; simp [Threads.start] at h

theorem known_step (b : BitField) (s : Threads) (i : Nat) (h : ThreadsKnown b s) : ThreadsKnown b (s.step i) := by
  rcases threads_step_cases s i with ⟨hs, -⟩ | ⟨c, rest, ht, hs⟩ | ⟨c, rest, v, ht, hs⟩
  · rw [hs]; exact h
  · rw [hs]
    refine ⟨h.left, ?_, h.answers⟩
    intro j t w hj hw
    by_cases hij : i = j
    · subst hij
      simp only at hj
      rw [set_thread_self ht] at hj
      obtain ⟨kept, h1, -, h3⟩ := h.left
      cases hj
      cases hw
      exact ⟨kept, h1, by rw [h3]⟩
    · simp only at hj
      rw [set_thread hij] at hj
      exact h.held j t w hj hw
  · rw [hs]
    obtain ⟨kept, h1, h2, h3⟩ := h.left
    obtain ⟨kept', h1', h3'⟩ := h.held i _ v ht rfl
    have hseen : s.field.seen v = bfRun b kept' := by
      rw [h3, bfRun_seen b kept, seen_seen, h3', ← bfRun_seen]
    have hends : ∀ o : BfOp, (o.run s.field).2 = (o.run (bfRun b kept')).2 := by
      intro o; rw [← hseen, op_ends]
    have hans : c.answer s.field v = FieldCall.tells (bfRun b kept') c := by
      rw [answer_tells, hseen]
    refine ⟨?_, ?_, ?_⟩
    · simp only [stored_append]
      cases c with
      | op o =>
        rw [store_op, hends, hseen, hans]
        simp only [FieldCall.tells]
        cases (o.run (bfRun b kept')).2 with
        | error e =>
          refine ⟨kept, ?_, ?_, h3⟩
          · simpa [stored, Except.map] using h1
          · simpa [stored, Except.map] using h2
        | ok r =>
          refine ⟨kept' ++ [o], ?_, ?_, (bfRun_snoc b kept' o).symm⟩
          · simpa [stored, Except.map] using h1'.append (List.Sublist.refl [o])
          · simp [stored, Except.map]
      | get k =>
        refine ⟨kept, ?_, ?_, h3⟩
        · simpa [stored] using h1
        · simpa [stored] using h2
      | value =>
        refine ⟨kept, ?_, ?_, h3⟩
        · simpa [stored] using h1
        · simpa [stored] using h2
    · intro j t w hj hw
      by_cases hij : i = j
      · subst hij
        simp only at hj
        rw [set_thread_self ht] at hj
        cases hj
        cases hw
      · simp only at hj
        rw [set_thread hij] at hj
        obtain ⟨k, hk1, hk2⟩ := h.held j t w hj hw
        refine ⟨k, ?_, hk2⟩
        simp only [stored_append]
        exact hk1.trans (List.sublist_append_left _ _)
    · intro pre j d a post hd
      simp only at hd
      rcases List.eq_nil_or_concat post with rfl | ⟨post', x, rfl⟩
      · rw [← List.concat_eq_append, ← List.concat_eq_append] at hd
        have hd2 := List.concat_inj.1 hd
        obtain ⟨rfl, hx⟩ := hd2
        cases hx
        exact ⟨kept', h1', hans⟩
      · rw [List.concat_eq_append, ← List.cons_append, ← List.append_assoc] at hd
        rw [← List.concat_eq_append, ← List.concat_eq_append] at hd
        exact h.answers pre j d a post' (List.concat_inj.1 hd).1

theorem known_run (b : BitField) (progs : List (List FieldCall)) (schedule : List Nat) :
    ThreadsKnown b ((Threads.start b progs).run schedule) :=
  run_keeps (ThreadsKnown b) (fun s i => known_step b s i) schedule _ (known_start b progs)

/-! ### Which calls end -/

theorem endedBy_append (i : Nat) (l l' : List Ended) :
    endedBy i (l ++ l') = endedBy i l ++ endedBy i l' := by
  simp [endedBy]

/-- The calls that a thread has yet to end. -/
def Threads.left (s : Threads) (i : Nat) : List FieldCall :=
  match s.threads[i]? with
  | some t => t.todo
  | none => []

theorem threadsLeft_step (s : Threads) (i j : Nat) :
    endedBy j (s.step i).done ++ (s.step i).left j = endedBy j s.done ++ s.left j := by
  rcases threads_step_cases s i with ⟨hs, -⟩ | ⟨c, rest, ht, hs⟩ | ⟨c, rest, v, ht, hs⟩
  · rw [hs]
  · rw [hs]
    simp only [Threads.left]
    by_cases hij : i = j
    · subst hij; rw [set_thread_self ht, ht]
    · rw [set_thread hij]
  · rw [hs]
    simp only [Threads.left, endedBy_append]
    by_cases hij : i = j
    · subst hij; rw [set_thread_self ht, ht]; simp [endedBy]
    · rw [set_thread hij]; simp [endedBy, hij]

theorem threadsLeft_run (schedule : List Nat) (j : Nat) : ∀ s : Threads,
    endedBy j (s.run schedule).done ++ (s.run schedule).left j = endedBy j s.done ++ s.left j := by
  induction schedule with
  | nil => intro s; rfl
  | cons i l ih => intro s; exact (ih (s.step i)).trans (threadsLeft_step s i j)

/-- The steps that a thread has yet to make; `none` if it is in no state to make them. -/
def FieldThread.steps (t : FieldThread) : Nat :=
  2 * t.todo.length - (match t.held with | some _ => 1 | none => 0)

theorem steps_step (s : Threads) (i j : Nat) :
    ((s.step i).threads[j]?).map FieldThread.steps =
      (s.threads[j]?).map fun t => t.steps - (if i = j then 1 else 0) := by
  rcases threads_step_cases s i with ⟨hs, h0⟩ | ⟨c, rest, ht, hs⟩ | ⟨c, rest, v, ht, hs⟩
  · rw [hs]
    cases h : s.threads[j]? with
    | none => rfl
    | some t =>
      by_cases hij : i = j
      · subst hij
        simp [FieldThread.steps, h0 t h]
      · simp [hij]
  · rw [hs]
    by_cases hij : i = j
    · subst hij
      simp only
      rw [set_thread_self ht, ht]
      simp [FieldThread.steps]
    · simp only
      rw [set_thread hij]
      simp [hij]
  · rw [hs]
    by_cases hij : i = j
    · subst hij
      simp only
      rw [set_thread_self ht, ht]
      simp [FieldThread.steps]
      omega
    · simp only
      rw [set_thread hij]
      simp [hij]

theorem steps_run (schedule : List Nat) (j : Nat) : ∀ s : Threads,
    ((s.run schedule).threads[j]?).map FieldThread.steps =
      (s.threads[j]?).map fun t => t.steps - schedule.count j := by
  induction schedule with
  | nil => intro s; rfl
  | cons i l ih =>
    intro s
    have h1 := ih (s.step i)
    have h2 := steps_step s i j
    show (((s.step i).run l).threads[j]?).map FieldThread.steps = _
    rw [h1]
    cases h3 : (s.step i).threads[j]? with
    | none =>
      rw [h3] at h2
      cases h4 : s.threads[j]? with
      | none => rfl
      | some t => rw [h4] at h2; cases h2
    | some t' =>
      rw [h3] at h2
      cases h4 : s.threads[j]? with
      | none => rw [h4] at h2; cases h2
      | some t =>
        rw [h4] at h2
        simp only [Option.map_some, Option.some.injEq] at h2 ⊢
        rw [h2, List.count_cons]
        by_cases hij : i = j
        · simp [hij]; omega
        · simp [hij]

/-! ### Runs that are as if one call was made after the other -/

theorem serialField_append (l : List (Nat × FieldCall)) : ∀ (b : BitField) (l' : List (Nat × FieldCall)),
    serialField b (l ++ l') = serialField (serialField b l) l' := by
  induction l with
  | nil => intro b l'; rfl
  | cons x l ih => intro b l'; exact ih _ l'

theorem serialDone_append (l : List (Nat × FieldCall)) : ∀ (b : BitField) (l' : List (Nat × FieldCall)),
    serialDone b (l ++ l') = serialDone b l ++ serialDone (serialField b l) l' := by
  induction l with
  | nil => intro b l'; rfl
  | cons x l ih =>
    intro b l'
    show _ :: serialDone _ (l ++ l') = _
    rw [ih]
    rfl

open Classical in
/-- Two lists in which the calls of each thread are the same have the same calls. -/
theorem perm_of_threads {l l' : List Ended}
    (h : ∀ i, l.filter (·.1 = i) = l'.filter (·.1 = i)) : l.Perm l' := by
  rw [List.perm_iff_count]
  intro a
  have h1 := congrArg (List.count a) (h a.1)
  rwa [List.count_filter (by simp), List.count_filter (by simp)] at h1

/-- The call that thread `i` has begun, if it only reads: its answer is known. -/
def Threads.begun (s : Threads) (i : Nat) : List Ended :=
  match s.threads[i]? with
  | some ⟨.get k :: _, some v⟩ => [(i, .get k, FieldCall.answer s.field v (.get k))]
  | some ⟨.value :: _, some v⟩ => [(i, .value, FieldCall.answer s.field v .value)]
  | _ => []

/-- The calls so far are as if made one after the other: a reading call when it has read, an
operation when it ends. -/
def SerialSoFar (b : BitField) (s : Threads) : Prop :=
  ∃ order, serialField b order = s.field ∧
    ∀ i, (serialDone b order).filter (·.1 = i) = s.done.filter (·.1 = i) ++ s.begun i

theorem begun_congr {s s' : Threads} {i : Nat} (h : s'.threads[i]? = s.threads[i]?)
    (hf : ∀ w, s'.field.seen w = s.field.seen w) : s'.begun i = s.begun i := by
  have ha : ∀ w (c : FieldCall), c.answer s'.field w = c.answer s.field w := by
    intro w c; rw [answer_tells, answer_tells, hf]
  unfold Threads.begun
  rw [h]
  simp only [ha]

theorem serialSoFar_step (b : BitField) (s : Threads) (i : Nat)
    (hu : ∀ o rest v, s.threads[i]? = some ⟨.op o :: rest, some v⟩ → v = s.field.value ∨ Blind o)
    (h : SerialSoFar b s) : SerialSoFar b (s.step i) := by
  rcases threads_step_cases s i with ⟨hs, -⟩ | ⟨c, rest, ht, hs⟩ | ⟨c, rest, v, ht, hs⟩
  · rw [hs]; exact h
  · obtain ⟨order, h1, h2⟩ := h
    have hbegun : s.begun i = [] := by
      unfold Threads.begun; rw [ht]; cases c <;> rfl
    have hother : ∀ j, i ≠ j → (s.step i).begun j = s.begun j := by
      intro j hij
      apply begun_congr
      · rw [hs]; exact set_thread hij
      · intro w; rw [hs]
    have hself : (s.step i).threads[i]? = some ⟨c :: rest, some s.field.value⟩ := by
      rw [hs]; exact set_thread_self ht
    have hfield : (s.step i).field = s.field := by rw [hs]
    have hdone : (s.step i).done = s.done := by rw [hs]
    have hread : (∀ o, c ≠ .op o) → SerialSoFar b (s.step i) := by
      intro hc
      refine ⟨order ++ [(i, c)], ?_, ?_⟩
      · rw [serialField_append, h1, hfield]
        cases c with
        | op o => exact absurd rfl (hc o)
        | get k => rfl
        | value => rfl
      · intro j
        rw [serialDone_append, List.filter_append, h2 j, hdone, h1]
        by_cases hij : i = j
        · subst hij
          rw [hbegun]
          unfold Threads.begun
          rw [hself]
          cases c with
          | op o => exact absurd rfl (hc o)
          | get k =>
            simp only [serialDone, hfield, answer_tells, seen_self]
            simp
          | value =>
            simp only [serialDone, hfield, answer_tells, seen_self]
            simp
        · rw [hother j hij]
          simp [serialDone, hij]
    cases c with
    | op o =>
      refine ⟨order, by rw [h1, hfield], ?_⟩
      intro j
      rw [h2 j, hdone]
      by_cases hij : i = j
      · subst hij
        rw [hbegun]
        unfold Threads.begun
        rw [hself]
      · rw [hother j hij]
    | get k => exact hread (by simp)
    | value => exact hread (by simp)
  · obtain ⟨order, h1, h2⟩ := h
    have hother : ∀ j, i ≠ j → (s.step i).begun j = s.begun j := by
      intro j hij
      apply begun_congr
      · rw [hs]; exact set_thread hij
      · intro w; rw [hs]; exact store_seen _ _ _ _
    have hself : (s.step i).begun i = [] := by
      unfold Threads.begun
      have : (s.step i).threads[i]? = some ⟨rest, none⟩ := by rw [hs]; exact set_thread_self ht
      rw [this]
      cases rest with
      | nil => rfl
      | cons d rest => cases d <;> rfl
    have hread : (∀ o, c ≠ .op o) → SerialSoFar b (s.step i) := by
      intro hc
      refine ⟨order, ?_, ?_⟩
      · rw [h1, hs]
        cases c with
        | op o => exact absurd rfl (hc o)
        | get k => rfl
        | value => rfl
      · intro j
        rw [h2 j]
        by_cases hij : i = j
        · subst hij
          rw [hself, hs, List.filter_append, List.append_nil]
          congr 1
          unfold Threads.begun
          rw [ht]
          cases c with
          | op o => exact absurd rfl (hc o)
          | get k => simp
          | value => simp
        · rw [hother j hij, hs, List.filter_append]
          simp [hij]
    cases c with
    | op o =>
      have hstore : FieldCall.store s.field v (.op o) = (o.run s.field).1 := by
        rcases hu o rest v ht with rfl | hb
        · exact store_value _ _
        · exact store_blind _ _ _ hb
      refine ⟨order ++ [(i, .op o)], ?_, ?_⟩
      · rw [serialField_append, h1, hs]
        exact hstore.symm
      · intro j
        rw [serialDone_append, List.filter_append, h2 j, h1, hs]
        simp only [List.filter_append]
        by_cases hij : i = j
        · subst hij
          rw [← hs, hself]
          have hbegun : s.begun i = [] := by unfold Threads.begun; rw [ht]
          rw [hbegun, answer_tells, tells_op]
          simp [serialDone]
        · rw [← hs, hother j hij]
          simp [serialDone, hij]
    | get k => exact hread (by simp)
    | value => exact hread (by simp)

theorem serialSoFar_run (b : BitField) (schedule : List Nat) : ∀ s, Undisturbed s schedule →
    SerialSoFar b s → SerialSoFar b (s.run schedule) := by
  induction schedule with
  | nil => intro s _ h; exact h
  | cons i l ih => intro s hu h; exact ih _ hu.2 (serialSoFar_step b s i hu.1 h)

theorem serial_of_soFar {b : BitField} {s : Threads} (hf : s.Finished) (h : SerialSoFar b s) :
    Serial b s := by
  obtain ⟨order, h1, h2⟩ := h
  have h3 : ∀ i, (serialDone b order).filter (·.1 = i) = s.done.filter (·.1 = i) := by
    intro i
    rw [h2 i]
    have : s.begun i = [] := by
      unfold Threads.begun
      cases ht : s.threads[i]? with
      | none => rfl
      | some t =>
        obtain ⟨todo, held⟩ := t
        have h0 := hf _ (List.mem_of_getElem? ht)
        simp only at h0
        subst h0
        rfl
    rw [this, List.append_nil]
  exact ⟨order, h1, perm_of_threads h3, h3⟩

/-- A run is undisturbed if something kept by every step says that each next step is. -/
theorem undisturbed_of (I : Threads → Prop) (hI : ∀ s i, I s → I (s.step i))
    (hu : ∀ (s : Threads) (i : Nat), I s → ∀ o rest v,
      s.threads[i]? = some (⟨.op o :: rest, some v⟩ : FieldThread) →
      v = s.field.value ∨ Blind o) (schedule : List Nat) :
    ∀ s, I s → Undisturbed s schedule := by
  induction schedule with
  | nil => intro s _; trivial
  | cons i l ih => intro s h; exact ⟨hu s i h, ih _ (hI s i h)⟩

/-- The calls not ended are calls of the programs. -/
theorem todo_step (P : Nat → FieldCall → Prop) (s : Threads) (i : Nat)
    (h : ∀ j t, s.threads[j]? = some t → ∀ c ∈ t.todo, P j c) :
    ∀ j t, (s.step i).threads[j]? = some t → ∀ c ∈ t.todo, P j c := by
  intro j t hj d hd
  rcases threads_step_cases s i with ⟨hs, -⟩ | ⟨c, rest, ht, hs⟩ | ⟨c, rest, v, ht, hs⟩
  · rw [hs] at hj; exact h j t hj d hd
  · rw [hs] at hj
    simp only at hj
    by_cases hij : i = j
    · subst hij
      rw [set_thread_self ht] at hj
      cases hj
      exact h i _ ht d hd
    · rw [set_thread hij] at hj; exact h j t hj d hd
  · rw [hs] at hj
    simp only at hj
    by_cases hij : i = j
    · subst hij
      rw [set_thread_self ht] at hj
      cases hj
      exact h i _ ht d (List.mem_cons_of_mem _ hd)
    · rw [set_thread hij] at hj; exact h j t hj d hd

/-! ### C238 -/

/-- C238: if all calls of some threads on a field have ended, then what they have returned and left
is what the calls would have returned and left if made one after the other, in some order that
keeps the order of the calls of each thread. -/
def C238_statement : Prop :=
  ∀ (b : BitField) (progs : List (List FieldCall)) (schedule : List Nat),
    ((Threads.start b progs).run schedule).Finished →
    Serial b ((Threads.start b progs).run schedule)

/-- C238 is false of the code: of two threads that each set a bit, one can undo the other. -/
theorem C238_refuted : ¬ C238_statement := by
  intro h
  obtain ⟨order, h1, h2, -⟩ := h ⟨2, 0, .lsb0, .msbLeft⟩
    [[.op (.setitem (.idx 0) 1)], [.op (.setitem (.idx 1) 1)]] [0, 1, 0, 1] (by decide +kernel)
  have hfield : ((Threads.start ⟨2, 0, .lsb0, .msbLeft⟩
      [[.op (.setitem (.idx 0) 1)], [.op (.setitem (.idx 1) 1)]]).run [0, 1, 0, 1]).field.value = 2 := by
    decide +kernel
  have hdone : ((Threads.start ⟨2, 0, .lsb0, .msbLeft⟩
      [[.op (.setitem (.idx 0) 1)], [.op (.setitem (.idx 1) 1)]]).run [0, 1, 0, 1]).done =
      [(0, .op (.setitem (.idx 0) 1), .ok none), (1, .op (.setitem (.idx 1) 1), .ok none)] := by
    rfl
  rw [← h1] at hfield
  rw [hdone] at h2
  have hmap : order.Perm [(0, .op (.setitem (.idx 0) 1)), (1, .op (.setitem (.idx 1) 1))] := by
    have : ∀ (l : List (Nat × FieldCall)) (b : BitField),
        (serialDone b l).map (fun x => (x.1, x.2.1)) = l := by
      intro l
      induction l with
      | nil => intro b; rfl
      | cons x l ih => intro b; exact congrArg (x :: ·) (ih _)
    have h3 := h2.map fun x => (x.1, x.2.1)
    rwa [this] at h3
  have hlen := hmap.length_eq
  match order, hlen with
  | [x, y], _ =>
    have hx := hmap.subset (List.mem_cons_self (a := x))
    have hy := hmap.subset (List.mem_cons_of_mem x (List.mem_cons_self (a := y)))
    simp only [List.mem_cons, List.not_mem_nil, or_false] at hx hy
    rcases hx with rfl | rfl <;> rcases hy with rfl | rfl
    · exact absurd hmap (by decide +kernel)
    · exact absurd hfield (by decide +kernel)
    · exact absurd hfield (by decide +kernel)
    · exact absurd hmap (by decide +kernel)

/-- C238, every run, ended or not: the field is what some of the operations that have not raised
leave if made one after the other, in the order in which they ended; the last of them is always
among these. What a call has returned or raised is what it returns or raises after some of the
operations that ended before it. -/
theorem C238_kept_partial (b : BitField) (progs : List (List FieldCall)) (schedule : List Nat) :
    (∃ kept, kept.Sublist (stored ((Threads.start b progs).run schedule).done) ∧
      kept.getLast? = (stored ((Threads.start b progs).run schedule).done).getLast? ∧
      ((Threads.start b progs).run schedule).field = bfRun b kept) ∧
    (∀ pre i c a post, ((Threads.start b progs).run schedule).done = pre ++ (i, c, a) :: post →
      ∃ kept, kept.Sublist (stored pre) ∧ a = FieldCall.tells (bfRun b kept) c) :=
  ⟨(known_run b progs schedule).left, (known_run b progs schedule).answers⟩

-- two of three writes survive a run in which the second thread reads too early
example : let s := (Threads.start ⟨4, 0, .lsb0, .msbLeft⟩
      [[.op (.setitem (.idx 0) 1), .get (.idx 1)], [.op (.setitem (.idx 1) 1)],
        [.op (.setitem (.slice (some 3) (some 2)) 3), .value]]).run [0, 1, 0, 1, 0, 2, 0, 2, 2, 2]
    s.field = bfRun ⟨4, 0, .lsb0, .msbLeft⟩
      [.setitem (.idx 1) 1, .setitem (.slice (some 3) (some 2)) 3] ∧ s.field.value = 14 ∧
    s.done.map (·.1) = [0, 1, 0, 2, 2] ∧ s.Finished := by
  refine ⟨rfl, rfl, rfl, by decide +kernel⟩

/-- C238, how operations end: whether an operation raises, and what, does not depend on the other
threads. -/
theorem C238_ends (b : BitField) (progs : List (List FieldCall)) (schedule : List Nat) (i : Nat)
    (o : BfOp) (a : Py (Option Int))
    (h : (i, FieldCall.op o, a) ∈ ((Threads.start b progs).run schedule).done) :
    a = (o.run b).2.map fun _ => none := by
  obtain ⟨pre, post, hd⟩ := List.append_of_mem h
  obtain ⟨kept, -, ha⟩ := (known_run b progs schedule).answers pre i _ a post hd
  rw [ha, bfRun_seen, tells_op]
  rfl

example : let s := (Threads.start ⟨4, 0, .lsb0, .msbLeft⟩
      [[.op (.setitem (.idx 4) 1)], [.op (.setValue 9)]]).run [0, 1, 1, 0]
    s.done = [(1, .op (.setValue 9), .ok none), (0, .op (.setitem (.idx 4) 1), .error .valueError)] := by
  rfl

/-- C238, which calls end: those of each thread in their order, each once; and all have ended
exactly if each thread has made two steps for each of its calls. -/
theorem C238_order (b : BitField) (progs : List (List FieldCall)) (schedule : List Nat) :
    (∀ i p, progs[i]? = some p → ∃ rest,
      endedBy i ((Threads.start b progs).run schedule).done ++ rest = p) ∧
    (((Threads.start b progs).run schedule).Finished ↔
      ∀ i p, progs[i]? = some p → 2 * p.length ≤ schedule.count i) ∧
    (((Threads.start b progs).run schedule).Finished → ∀ i p, progs[i]? = some p →
      endedBy i ((Threads.start b progs).run schedule).done = p) := by
  have hstart : ∀ (i : Nat) (p : List FieldCall), progs[i]? = some p →
      (Threads.start b progs).threads[i]? = some (⟨p, none⟩ : FieldThread) := by
    intro i p h; simp [Threads.start, h]
  have hleft : ∀ (i : Nat) (p : List FieldCall), progs[i]? = some p → endedBy i ((Threads.start b progs).run schedule).done ++
      ((Threads.start b progs).run schedule).left i = p := by
    intro i p h
    rw [threadsLeft_run]
    simp only [Threads.left]
    rw [hstart i p h]
    rfl
  refine ⟨fun i p h => ⟨_, hleft i p h⟩, ⟨?_, ?_⟩, ?_⟩
  · intro hf i p h
    have h1 := steps_run schedule i (Threads.start b progs)
    rw [hstart i p h] at h1
    cases h2 : ((Threads.start b progs).run schedule).threads[i]? with
    | none => rw [h2] at h1; cases h1
    | some t =>
      rw [h2] at h1
      have h3 := hf t (List.mem_of_getElem? h2)
      simp [FieldThread.steps, h3] at h1
      omega
  · intro hc t ht
    obtain ⟨i, hi, rfl⟩ := List.mem_iff_getElem.1 ht
    have h2 := List.getElem?_eq_getElem hi
    have h1 := steps_run schedule i (Threads.start b progs)
    rw [h2] at h1
    cases h3 : (Threads.start b progs).threads[i]? with
    | none => rw [h3] at h1; cases h1
    | some t0 =>
      obtain ⟨p, hp, rfl⟩ := start_thread h3
      rw [h3] at h1
      have h4 := hc i p hp
      simp only [Option.map_some, Option.some.injEq, FieldThread.steps] at h1
      apply List.length_eq_zero_iff.1
      split at h1 <;> omega
  · intro hf i p h
    have h1 := hleft i p h
    have : ((Threads.start b progs).run schedule).left i = [] := by
      unfold Threads.left
      cases h2 : ((Threads.start b progs).run schedule).threads[i]? with
      | none => rfl
      | some t => exact hf t (List.mem_of_getElem? h2)
    rwa [this, List.append_nil] at h1

example : let s := (Threads.start ⟨4, 0, .lsb0, .msbLeft⟩
      [[.op (.setValue 3), .value], [.get (.idx 0)]]).run [0, 1, 0, 1, 1, 0, 0]
    s.Finished ∧ endedBy 0 s.done = [.op (.setValue 3), .value] ∧
    s.done.map (·.2.2) = [.ok none, .ok (some 0), .ok (some 3)] := by
  refine ⟨by decide +kernel, rfl, rfl⟩

/-- C238 for runs in which no operation that uses the old value ends after that value is gone. -/
theorem C238_undisturbed_partial (b : BitField) (progs : List (List FieldCall))
    (schedule : List Nat) (hu : Undisturbed (Threads.start b progs) schedule)
    (hf : ((Threads.start b progs).run schedule).Finished) :
    Serial b ((Threads.start b progs).run schedule) := by
  apply serial_of_soFar hf
  apply serialSoFar_run b schedule _ hu
  refine ⟨[], rfl, ?_⟩
  intro i
  have : (Threads.start b progs).begun i = [] := by
    unfold Threads.begun
    cases h : (Threads.start b progs).threads[i]? with
    | none => rfl
    | some t =>
      obtain ⟨p, -, rfl⟩ := start_thread h
      cases p with
      | nil => rfl
      | cons c p => cases c <;> rfl
  rw [this]
  rfl

-- the second operation begins after the first one has ended, the reading call goes on meanwhile
example : let s := (Threads.start ⟨4, 0, .lsb0, .msbLeft⟩
      [[.op (.setitem (.idx 0) 1)], [.op (.setitem (.idx 1) 1)], [.value]]);
    Undisturbed s [0, 2, 0, 1, 1, 2] ∧ (s.run [0, 2, 0, 1, 1, 2]).Finished ∧
    (s.run [0, 2, 0, 1, 1, 2]).field.value = 3 := by
  refine ⟨⟨?_, ?_, ?_, ?_, ?_, ?_, trivial⟩, by decide +kernel, rfl⟩
  · intro o rest v h; cases h
  · intro o rest v h; cases h
  · intro o rest v h; cases h; exact Or.inl rfl
  · intro o rest v h; cases h
  · intro o rest v h; cases h; exact Or.inl rfl
  · intro o rest v h; cases h

/-- C238 for one thread that writes and any number of threads that only read. -/
theorem C238_one_writer_partial (b : BitField) (progs : List (List FieldCall)) (schedule : List Nat)
    (w : Nat) (hw : ∀ i p, progs[i]? = some p → i ≠ w → ReadsOnly p)
    (hf : ((Threads.start b progs).run schedule).Finished) :
    Serial b ((Threads.start b progs).run schedule) := by
  refine C238_undisturbed_partial b progs schedule ?_ hf
  refine undisturbed_of (fun s =>
    (∀ j t, s.threads[j]? = some t → ∀ c ∈ t.todo, ∀ o, c = .op o → j = w) ∧
    ∀ t v, s.threads[w]? = some t → t.held = some v → v = s.field.value) ?_ ?_ schedule _ ⟨?_, ?_⟩
  · rintro s i ⟨h1, h2⟩
    refine ⟨todo_step (fun j c => ∀ o, c = .op o → j = w) s i h1, ?_⟩
    intro t v hj hv
    rcases threads_step_cases s i with ⟨hs, -⟩ | ⟨c, rest, ht, hs⟩ | ⟨c, rest, v', ht, hs⟩
    · rw [hs] at hj ⊢; exact h2 t v hj hv
    · rw [hs] at hj ⊢
      simp only at hj ⊢
      by_cases hij : i = w
      · subst hij
        rw [set_thread_self ht] at hj
        cases hj
        cases hv
        rfl
      · rw [set_thread hij] at hj; exact h2 t v hj hv
    · rw [hs] at hj ⊢
      simp only at hj ⊢
      by_cases hij : i = w
      · subst hij
        rw [set_thread_self ht] at hj
        cases hj
        cases hv
      · rw [set_thread hij] at hj
        cases c with
        | op o => exact absurd (h1 i _ ht _ List.mem_cons_self o rfl) hij
        | get k => exact h2 t v hj hv
        | value => exact h2 t v hj hv
  · rintro s i ⟨h1, h2⟩ o rest v ht
    have := h1 i _ ht _ List.mem_cons_self o rfl
    subst this
    exact Or.inl (h2 _ v ht rfl)
  · intro j t hj c hc o ho
    obtain ⟨p, hp, rfl⟩ := start_thread hj
    by_contra hne
    exact hw j p hp hne o (ho ▸ hc)
  · intro t v hj hv
    obtain ⟨p, -, rfl⟩ := start_thread hj
    cases hv

example : let progs : List (List FieldCall) :=
      [[.op (.setitem (.idx 0) 1), .op (.setitem (.idx 1) 1)], [.value, .get (.idx 1)]]
    (∀ i p, progs[i]? = some p → i ≠ 0 → ReadsOnly p) ∧
    ((Threads.start ⟨4, 0, .lsb0, .msbLeft⟩ progs).run [0, 1, 0, 0, 1, 1, 0, 1]).Finished := by
  refine ⟨?_, by decide +kernel⟩
  intro i p h hi
  match i, hi with
  | 1, _ => cases h; intro o; simp
  | n + 2, _ => cases h

/-- C238 for operations that do not use the old value: assignments of `value`, and `set` and `clear`
of all bits. -/
theorem C238_blind_partial (b : BitField) (progs : List (List FieldCall)) (schedule : List Nat)
    (hb : ∀ p ∈ progs, ∀ o, FieldCall.op o ∈ p → Blind o)
    (hf : ((Threads.start b progs).run schedule).Finished) :
    Serial b ((Threads.start b progs).run schedule) := by
  refine C238_undisturbed_partial b progs schedule ?_ hf
  refine undisturbed_of (fun s =>
    ∀ (j : Nat) (t : FieldThread), s.threads[j]? = some t →
      ∀ c ∈ t.todo, ∀ o, c = .op o → Blind o) ?_ ?_ schedule _ ?_
  · intro s i h1
    exact todo_step (fun _ c => ∀ o, c = .op o → Blind o) s i h1
  · intro s i h1 o rest v ht
    exact Or.inr (h1 i _ ht _ List.mem_cons_self o rfl)
  · intro j t hj c hc o ho
    obtain ⟨p, hp, rfl⟩ := start_thread hj
    exact hb p (List.mem_of_getElem? hp) o (ho ▸ hc)

example : let progs : List (List FieldCall) :=
      [[.op (.setValue 5), .value], [.op (.clear none), .op (.set none)]]
    (∀ p ∈ progs, ∀ o, FieldCall.op o ∈ p → Blind o) ∧
    ((Threads.start ⟨4, 0, .lsb0, .msbLeft⟩ progs).run [0, 1, 0, 1, 1, 0, 1, 0]).Finished := by
  refine ⟨?_, by decide +kernel⟩
  simp [Blind]

/-- C238 for threads that take turns, each making a whole call at a time, as with a lock. -/
theorem C238_locked_partial (b : BitField) (progs : List (List FieldCall)) (turns : List Nat)
    (hf : ((Threads.start b progs).run (turns.flatMap fun i => [i, i])).Finished) :
    Serial b ((Threads.start b progs).run (turns.flatMap fun i => [i, i])) := by
  refine C238_undisturbed_partial b progs _ ?_ hf
  have key : ∀ (turns : List Nat) (s : Threads),
      (∀ (j : Nat) (t : FieldThread), s.threads[j]? = some t → t.held = none) →
      Undisturbed s (turns.flatMap fun i => [i, i]) := by
    intro turns
    induction turns with
    | nil => intro s _; trivial
    | cons i l ih =>
      intro s h
      show Undisturbed s (i :: i :: l.flatMap fun i => [i, i])
      rcases threads_step_cases s i with ⟨hs, hn⟩ | ⟨c, rest, ht, hs⟩ | ⟨c, rest, v, ht, hs⟩
      · refine ⟨fun o rest v ht => ?_, ?_⟩
        · cases h i _ ht
        · rw [hs]
          refine ⟨fun o rest v ht => ?_, ?_⟩
          · cases h i _ ht
          · rw [hs]; exact ih s h
      · refine ⟨fun o rest v ht => ?_, ?_⟩
        · cases h i _ ht
        · have ht' : (s.step i).threads[i]? = some ⟨c :: rest, some s.field.value⟩ := by
            rw [hs]; exact set_thread_self ht
          have hfield : (s.step i).field = s.field := by rw [hs]
          refine ⟨fun o rest' v hv => ?_, ?_⟩
          · rw [ht'] at hv
            cases hv
            rw [hfield]
            exact Or.inl rfl
          · apply ih
            intro j t hj
            rcases threads_step_cases (s.step i) i with
              ⟨-, hn⟩ | ⟨c', rest', ht2, -⟩ | ⟨c', rest', v', ht2, hs2⟩
            · cases hn _ ht'
            · rw [ht'] at ht2; cases ht2
            · rw [hs2] at hj
              simp only at hj
              by_cases hij : i = j
              · subst hij
                rw [set_thread_self ht'] at hj
                cases hj
                rfl
              · rw [set_thread hij, hs] at hj
                simp only at hj
                rw [set_thread hij] at hj
                exact h j t hj
      · cases h i _ ht
  apply key
  intro j t hj
  obtain ⟨p, -, rfl⟩ := start_thread hj
  rfl

example : ((Threads.start ⟨4, 0, .lsb0, .msbLeft⟩
      [[.op (.setitem (.idx 0) 1)], [.op (.setitem (.idx 1) 1), .value]]).run
      ([1, 0, 1].flatMap fun i => [i, i])).Finished := by decide +kernel

/-- C238, the bits: whatever the schedule, values that fit leave a value that fits, and a bit that no
operation touches is as it was. -/
theorem C238_bits_partial (b : BitField) (progs : List (List FieldCall)) (schedule : List Nat)
    (hb : Fits b.width b.value)
    (hfit : ∀ p ∈ progs, ∀ o, FieldCall.op o ∈ p → OpFits b.numbering.code b.width o) :
    Fits b.width ((Threads.start b progs).run schedule).field.value ∧
    (b.order = .msbLeft → ∀ k, k < b.width →
      (∀ p ∈ progs, ∀ o, FieldCall.op o ∈ p → ¬ Touched b.numbering.code b.width o k) →
      bitOf ((Threads.start b progs).run schedule).field.value k = bitOf b.value k) := by
  obtain ⟨kept, h1, -, h3⟩ := (known_run b progs schedule).left
  have hmem : ∀ o ∈ kept, ∃ p ∈ progs, FieldCall.op o ∈ p := by
    intro o ho
    have hst : ∀ (l : List Ended), o ∈ stored l → ∃ i a, (i, FieldCall.op o, a) ∈ l := by
      intro l
      induction l with
      | nil => intro h; cases h
      | cons x l ih =>
        obtain ⟨i, c, a⟩ := x
        intro h
        have hrest : o ∈ stored l → ∃ j e, (j, FieldCall.op o, e) ∈ (i, c, a) :: l := by
          intro h
          obtain ⟨j, e, hj⟩ := ih h
          exact ⟨j, e, List.mem_cons_of_mem _ hj⟩
        cases c with
        | op o' =>
          cases a with
          | error e => exact hrest h
          | ok r =>
            simp only [stored, List.mem_cons] at h
            rcases h with rfl | h
            · exact ⟨i, _, List.mem_cons_self⟩
            · exact hrest h
        | get k => exact hrest h
        | value => exact hrest h
    obtain ⟨i, a, hi⟩ := hst _ (h1.subset ho)
    have hby : FieldCall.op o ∈ endedBy i ((Threads.start b progs).run schedule).done := by
      simp only [endedBy, List.mem_map, List.mem_filter]
      exact ⟨_, ⟨hi, by simp⟩, rfl⟩
    have hl := threadsLeft_run schedule i (Threads.start b progs)
    have hin : FieldCall.op o ∈ (Threads.start b progs).left i := by
      have : FieldCall.op o ∈ endedBy i (Threads.start b progs).done ++ (Threads.start b progs).left i := by
        rw [← hl]; exact List.mem_append_left _ hby
      simpa [endedBy, Threads.start] using this
    unfold Threads.left at hin
    cases ht : (Threads.start b progs).threads[i]? with
    | none => rw [ht] at hin; cases hin
    | some t =>
      obtain ⟨p, hp, rfl⟩ := start_thread ht
      rw [ht] at hin
      exact ⟨p, List.mem_of_getElem? hp, hin⟩
  have hk : ∀ o ∈ kept, OpFits b.numbering.code b.width o := by
    intro o ho
    obtain ⟨p, hp, hop⟩ := hmem o ho
    exact hfit p hp o hop
  rw [h3]
  refine ⟨bfRun_fits kept b hb hk, ?_⟩
  intro ho k hkw hun
  rw [bfRun_refines kept b (fun j => bitOf b.value j) ho hb hk (fun _ _ => rfl) k hkw]
  have : ∀ (l : List BfOp) (a : BitArray),
      (∀ o ∈ l, ¬ Touched b.numbering.code b.width o k) →
      l.foldl (BitArray.step b.numbering.code b.width) a k = a k := by
    intro l
    induction l with
    | nil => intro a _; rfl
    | cons o l ih =>
      intro a h
      rw [List.foldl_cons, ih _ (fun o' ho' => h o' (List.mem_cons_of_mem _ ho')),
        step_untouched (h o List.mem_cons_self)]
  refine this kept _ ?_
  intro o hok
  obtain ⟨p, hp, hop⟩ := hmem o hok
  exact hun p hp o hop

example : let progs : List (List FieldCall) :=
      [[.op (.setitem (.idx 0) 1)], [.op (.setitem (.idx 1) 1)]]
    Fits 4 8 ∧ (∀ p ∈ progs, ∀ o, FieldCall.op o ∈ p → OpFits 0 4 o) ∧
    (∀ p ∈ progs, ∀ o, FieldCall.op o ∈ p → ¬ Touched 0 4 o 3) := by
  refine ⟨by simp [Fits], ?_, ?_⟩
  · simp [OpFits, Fits]
  · simp [Touched, weightExp]

/-! ### C238_kept_partial says no more than is true -/

theorem step_fetch (f : BitField) (A B : List FieldThread) (d : List Ended) (o : BfOp)
    (rest : List FieldCall) :
    Threads.step ⟨f, A ++ ⟨.op o :: rest, none⟩ :: B, d⟩ A.length =
      ⟨f, A ++ ⟨.op o :: rest, some f.value⟩ :: B, d⟩ := by
  unfold Threads.step
  simp

theorem step_store (f : BitField) (A B : List FieldThread) (d : List Ended) (o : BfOp)
    (rest : List FieldCall) (v : Int) :
    Threads.step ⟨f, A ++ ⟨.op o :: rest, some v⟩ :: B, d⟩ A.length =
      ⟨FieldCall.store f v (.op o), A ++ ⟨rest, none⟩ :: B,
        d ++ [(A.length, .op o, FieldCall.answer f v (.op o))]⟩ := by
  unfold Threads.step
  simp

theorem run_append (s : Threads) (l l' : List Nat) : s.run (l ++ l') = (s.run l).run l' := by
  simp [Threads.run]

/-- A thread with one operation. -/
def oneOp (o : BfOp) : FieldThread := ⟨[.op o], none⟩

/-- A thread that has ended. -/
def noOp : FieldThread := ⟨[], none⟩

theorem tells_ok {b f : BitField} {v : Int} {o : BfOp} (hf : ∀ w, f.seen w = b.seen w)
    (h : (o.run b).2 = .ok ()) : FieldCall.answer f v (.op o) = .ok none := by
  rw [answer_tells, hf, tells_op]
  simp [FieldCall.tells, h, Except.map]

/-- Threads that make a whole call each, one after the other. -/
theorem run_each (b : BitField) (us : List BfOp) : ∀ (f : BitField) (A B : List FieldThread)
    (d : List Ended), (∀ w, f.seen w = b.seen w) → (∀ o ∈ us, (o.run b).2 = .ok ()) →
    ∃ f' d', (∀ w, f'.seen w = b.seen w) ∧ stored d' = stored d ++ us ∧
      Threads.run ⟨f, A ++ us.map oneOp ++ B, d⟩
        ((List.range us.length).flatMap fun j => [A.length + j, A.length + j]) =
        ⟨f', A ++ us.map (fun _ => noOp) ++ B, d'⟩ := by
  induction us with
  | nil => intro f A B d hf _; exact ⟨f, d, hf, by simp, rfl⟩
  | cons u us ih =>
    intro f A B d hf hok
    have h1 := step_fetch f A (us.map oneOp ++ B) d u []
    have h2 := step_store f A (us.map oneOp ++ B) d u [] f.value
    obtain ⟨f', d', hf', hd', hrun⟩ := ih (FieldCall.store f f.value (.op u)) (A ++ [noOp]) B
      (d ++ [(A.length, .op u, FieldCall.answer f f.value (.op u))])
      (fun w => (store_seen _ _ _ _).trans (hf w)) (fun o ho => hok o (List.mem_cons_of_mem _ ho))
    refine ⟨f', d', hf', ?_, ?_⟩
    · rw [hd', stored_append, tells_ok hf (hok u List.mem_cons_self)]
      simp [stored]
    · have hsched : ((List.range (u :: us).length).flatMap fun j => [A.length + j, A.length + j]) =
          [A.length, A.length] ++ ((List.range us.length).flatMap fun j =>
            [(A ++ [noOp]).length + j, (A ++ [noOp]).length + j]) := by
        rw [List.length_cons, List.range_succ_eq_map, List.flatMap_cons, List.flatMap_map]
        simp [Nat.add_assoc, Nat.add_comm 1]
      rw [hsched, run_append]
      have hfirst : Threads.run ⟨f, A ++ (u :: us).map oneOp ++ B, d⟩ [A.length, A.length] =
          ⟨FieldCall.store f f.value (.op u), (A ++ [noOp]) ++ us.map oneOp ++ B,
            d ++ [(A.length, .op u, FieldCall.answer f f.value (.op u))]⟩ := by
        simp only [Threads.run, List.foldl_cons, List.foldl_nil]
        have e1 : A ++ (u :: us).map oneOp ++ B = A ++ ⟨[.op u], none⟩ :: (us.map oneOp ++ B) := by
          simp [oneOp]
        rw [e1, h1, h2]
        simp [noOp]
      rw [hfirst, hrun]
      simp

/-- Lists of operations of which each last one is kept. -/
theorem run_segments (b : BitField) (segs : List (List BfOp × BfOp)) :
    ∀ (f : BitField) (A : List FieldThread) (d : List Ended), (∀ w, f.seen w = b.seen w) →
    (∀ o ∈ segs.flatMap (fun s => s.1 ++ [s.2]), (o.run b).2 = .ok ()) →
    ∃ schedule d', stored d' = stored d ++ segs.flatMap (fun s => s.1 ++ [s.2]) ∧
      Threads.run ⟨f, A ++ (segs.flatMap (fun s => s.1 ++ [s.2])).map oneOp, d⟩ schedule =
        ⟨bfRun f (segs.map (·.2)),
          A ++ (segs.flatMap (fun s => s.1 ++ [s.2])).map (fun _ => noOp), d'⟩ := by
  induction segs with
  | nil => intro f A d _ _; exact ⟨[], d, by simp, by simp [Threads.run, bfRun]⟩
  | cons seg segs ih =>
    obtain ⟨us, c⟩ := seg
    intro f A d hf hok
    have hc : (c.run b).2 = .ok () := hok c (by simp)
    obtain ⟨f1, d1, hf1, hd1, hrun1⟩ := run_each b us f A
      (⟨[.op c], some f.value⟩ :: (segs.flatMap (fun s => s.1 ++ [s.2])).map oneOp) d hf
      (fun o ho => hok o (by simp [ho]))
    have hst : FieldCall.store f1 f.value (.op c) = (c.run f).1 := by
      have hends : (c.run f1).2 = .ok () := by
        rw [← seen_self f1, hf1, op_ends, hc]
      rw [store_op, hends]
      simp only
      rw [hf1, ← hf, seen_self]
    obtain ⟨sched, d2, hd2, hrun2⟩ := ih (c.run f).1 (A ++ us.map (fun _ => noOp) ++ [noOp])
      (d1 ++ [((A ++ us.map (fun _ => noOp)).length, .op c, FieldCall.answer f1 f.value (.op c))])
      (fun w => by rw [← hst, store_seen, hf1])
      (fun o ho => hok o (by
        rw [List.flatMap_cons]; exact List.mem_append_right _ ho))
    refine ⟨(A ++ us.map oneOp).length ::
      (((List.range us.length).flatMap fun j => [A.length + j, A.length + j]) ++
        ((A ++ us.map (fun _ => noOp)).length :: sched)), d2, ?_, ?_⟩
    · rw [hd2, stored_append, hd1, tells_ok hf1 hc]
      simp [stored]
    · have e1 : A ++ (((us, c) :: segs).flatMap (fun s => s.1 ++ [s.2])).map oneOp =
          (A ++ us.map oneOp) ++ ⟨[.op c], none⟩ ::
            (segs.flatMap (fun s => s.1 ++ [s.2])).map oneOp := by
        simp [oneOp]
      rw [e1]
      show Threads.run (Threads.step _ _) _ = _
      rw [step_fetch, run_append, hrun1]
      show Threads.run (Threads.step _ _) _ = _
      rw [step_store, hst]
      have e2 : (A ++ us.map (fun _ => noOp)) ++ (⟨[], none⟩ : FieldThread) ::
            (segs.flatMap (fun s => s.1 ++ [s.2])).map oneOp =
          (A ++ us.map (fun _ => noOp) ++ [noOp]) ++
            (segs.flatMap (fun s => s.1 ++ [s.2])).map oneOp := by
        simp [noOp]
      rw [e2, hrun2]
      simp [bfRun]

theorem segments (kept : List BfOp) : ∀ ops : List BfOp, kept.Sublist ops →
    kept.getLast? = ops.getLast? → ∃ segs : List (List BfOp × BfOp),
      ops = segs.flatMap (fun s => s.1 ++ [s.2]) ∧ kept = segs.map (·.2) := by
  induction kept with
  | nil =>
    intro ops _ h
    have : ops = [] := List.getLast?_eq_none_iff.1 h.symm
    exact ⟨[], this, rfl⟩
  | cons c kept ih =>
    intro ops hs h
    cases kept with
    | nil =>
      refine ⟨[(ops.dropLast, c)], ?_, rfl⟩
      have h1 : ops.getLast? = some c := h.symm
      simp only [List.flatMap_cons, List.flatMap_nil, List.append_nil]
      exact (List.dropLast_append_getLast? c h1).symm
    | cons c' kept =>
      obtain ⟨r1, r2, rfl, hmem, hsub⟩ := List.cons_sublist_iff.1 hs
      obtain ⟨us, vs, rfl⟩ := List.append_of_mem hmem
      have hsub' : (c' :: kept).Sublist (vs ++ r2) := hsub.trans (List.sublist_append_right _ _)
      have hne : vs ++ r2 ≠ [] := by
        intro h0; rw [h0] at hsub'; cases hsub'
      have hlast : (us ++ c :: vs ++ r2).getLast? = (vs ++ r2).getLast? := by
        have : us ++ c :: vs ++ r2 = (us ++ [c]) ++ (vs ++ r2) := by simp
        rw [this, List.getLast?_append_of_ne_nil _ hne]
      obtain ⟨segs, h1, h2⟩ := ih (vs ++ r2) hsub' (by
        rw [← hlast, ← h, List.getLast?_cons_cons])
      exact ⟨(us, c) :: segs, by simp [← h1], by rw [h2]; rfl⟩

/-- C238, which operations are lost: any choice that keeps the last one can happen. For operations
that do not raise, each made by a thread of its own, and any selection of them with the last one,
there is a schedule after which all have ended, in this order, and the field is that of the
selected ones alone. -/
theorem C238_any_lost (b : BitField) (ops kept : List BfOp)
    (hok : ∀ o ∈ ops, (o.run b).2 = .ok ()) (hs : kept.Sublist ops)
    (hl : kept.getLast? = ops.getLast?) :
    ∃ schedule, ((Threads.start b (ops.map fun o => [.op o])).run schedule).Finished ∧
      stored ((Threads.start b (ops.map fun o => [.op o])).run schedule).done = ops ∧
      ((Threads.start b (ops.map fun o => [.op o])).run schedule).field = bfRun b kept := by
  obtain ⟨segs, rfl, rfl⟩ := segments kept ops hs hl
  obtain ⟨schedule, d, hd, hrun⟩ := run_segments b segs b [] [] (fun _ => rfl) hok
  have hstart : Threads.start b ((segs.flatMap fun s => s.1 ++ [s.2]).map fun o => [.op o]) =
      ⟨b, [] ++ (segs.flatMap fun s => s.1 ++ [s.2]).map oneOp, []⟩ := by
    unfold Threads.start
    rw [List.map_map]
    rfl
  refine ⟨schedule, ?_, ?_, ?_⟩
  · rw [hstart, hrun]
    intro t ht
    simp only [List.nil_append, List.mem_map] at ht
    obtain ⟨-, -, rfl⟩ := ht
    rfl
  · rw [hstart, hrun]; exact hd
  · rw [hstart, hrun]

-- the first of three is lost
example : let ops : List BfOp := [.setitem (.idx 0) 1, .setitem (.idx 1) 1, .setitem (.idx 2) 1]
    (∀ o ∈ ops, (o.run ⟨4, 0, .lsb0, .msbLeft⟩).2 = .ok ()) ∧
    [BfOp.setitem (.idx 1) 1, .setitem (.idx 2) 1].Sublist ops ∧
    (bfRun ⟨4, 0, .lsb0, .msbLeft⟩ [.setitem (.idx 1) 1, .setitem (.idx 2) 1]).value = 6 := by
  refine ⟨by decide +kernel, by decide, rfl⟩

end H800
