import Verif.Model.Memory

/-!
One memory bank that several threads read and write.

`bank[a]`, `bank[a] = v`, `bank[s:e]`, `bank[s:e] = v` and `clear` (memory.py 47-61, 82-84) touch one
word after the other, reading or assigning the value of each at once (`Word.value`, word.py 47-55,
makes one read or one assignment of `_value`, after checks that look at the new value only). Between
two words any steps of other threads can come. A call is given by the addresses that it touches, in
order; that of a slice is `range(s, e)`, that of `clear` all addresses. A call that touches no word
ends in one step.
-/

namespace H800

/-- A call: the addresses touched, and for assignments the value. -/
inductive BankCall where
  | fill (v : Int) (as : List Int)
  | read (as : List Int)
  deriving DecidableEq, Repr

/-- The addresses of a call. -/
def BankCall.addrs : BankCall → List Int
  | .fill _ as => as
  | .read as => as

/-- memory.py 50-51 and 58-59, one round: the bank after it, and the value read, if any. -/
def BankCall.touch (m : MemoryBank) (a : Int) : BankCall → MemoryBank × Py (List Int)
  | .fill v _ =>
    match m.set a v with
    | (m', .ok _) => (m', .ok [])
    | (m', .error e) => (m', .error e)
  | .read _ =>
    match m.get a with
    | .ok x => (m, .ok [x])
    | .error e => (m, .error e)

/-- A call that has ended: its thread, the call, and the values read (none for assignments) or the
exception. -/
abbrev BankDone := Nat × BankCall × Py (List Int)

/-- A thread: the calls that it has yet to end, and, if it is within the first of them, the addresses
not yet touched and the values read. -/
structure BankThread where
  /-- the calls not ended -/
  todo : List BankCall
  /-- how far the first of them is -/
  within : Option (List Int × List Int)
  deriving DecidableEq, Repr

/-- The bank, the threads and the calls ended, the first one first. -/
structure Sharers where
  /-- the bank -/
  bank : MemoryBank
  /-- the threads -/
  threads : List BankThread
  /-- the calls ended -/
  done : List BankDone

/-- A step of a thread: its call touches the next word, and ends if that was the last one or an
exception is raised. The bank and the thread after it, and the call that has ended, if any, with the
values read or the exception. Nothing happens if no calls are left. -/
def BankThread.advance (m : MemoryBank) (t : BankThread) :
    MemoryBank × BankThread × Option (BankCall × Py (List Int)) :=
  match t.todo with
  | [] => (m, t, none)
  | c :: rest =>
    match t.within.getD (c.addrs, []) with
    | ([], got) => (m, ⟨rest, none⟩, some (c, .ok got))
    | (a :: as, got) =>
      match c.touch m a with
      | (m', .error e) => (m', ⟨rest, none⟩, some (c, .error e))
      | (m', .ok xs) =>
        if as = [] then (m', ⟨rest, none⟩, some (c, .ok (got ++ xs)))
        else (m', ⟨c :: rest, some (as, got ++ xs)⟩, none)

/-- A step of thread `i`; nothing happens if there is no such thread. -/
def Sharers.step (s : Sharers) (i : Nat) : Sharers :=
  match s.threads[i]? with
  | none => s
  | some t =>
    ⟨(t.advance s.bank).1, s.threads.set i (t.advance s.bank).2.1,
      s.done ++ (t.advance s.bank).2.2.toList.map fun x => (i, x)⟩

/-- The threads before the first step. -/
def Sharers.start (m : MemoryBank) (progs : List (List BankCall)) : Sharers :=
  ⟨m, progs.map fun p => ⟨p, none⟩, []⟩

/-- A run: the schedule says which thread makes the next step. -/
def Sharers.run (s : Sharers) (schedule : List Nat) : Sharers := schedule.foldl Sharers.step s

/-- No thread is within a call. -/
def Sharers.Calm (s : Sharers) : Prop := ∀ t ∈ s.threads, t.within = none

instance (s : Sharers) : Decidable s.Calm := by unfold Sharers.Calm; infer_instance

end H800
