import Verif.Model.Memory

/-!
One memory bank that several threads iterate over.

`MemoryBank.__next__` (memory.py 69-74) reads `_current` and compares it, reads it again and assigns
it the next number (`+=` is a read and an assignment), and reads it a third time for the word that it
returns. Between these steps any steps of other threads can come. The interpreter makes reads and
assignments of an attribute one after the other; the last read and the look-up in `_data`, which
nothing changes, are one step. A thread makes as many calls as the schedule lets it.
`RegisterGroup.__next__` and `Registers.__next__` (registers.py 180-185, 238-243) are made alike; for the
group see Model/Clearers, the file is not modelled.
-/

namespace H800

/-- How far a thread is with its call of `next`; memory.py 69-74. -/
inductive Taking where
  /-- no call begun -/
  | before
  /-- the comparison (70) was false -/
  | passed
  /-- `+=` (73) has read the cursor -/
  | read (c : Nat)
  /-- `+=` (73) has assigned it -/
  | moved
  deriving DecidableEq, Repr

/-- A call that has ended: its thread, and the address of the word returned, None for StopIteration,
or the exception. -/
abbrev Took := Nat × Py (Option Nat)

/-- The bank, the threads and the calls ended, the first one first. -/
structure Takers where
  /-- the bank -/
  bank : MemoryBank
  /-- the threads -/
  threads : List Taking
  /-- the calls ended -/
  done : List Took

/-- memory.py 74: `self._data[self._current - 1]`. -/
def MemoryBank.taken (m : MemoryBank) : Py (Option Nat) :=
  match m.word ((m.current : Int) - 1) with
  | .ok _ => .ok (some (m.current - 1))
  | .error e => .error e

/-- A step of thread `i` of memory.py 69-74; nothing happens if there is no such thread. -/
def Takers.step (s : Takers) (i : Nat) : Takers :=
  match s.threads[i]? with
  | none => s
  | some .before =>
    if s.bank.current ≥ s.bank.len then { s with done := s.done ++ [(i, .ok none)] }
    else { s with threads := s.threads.set i .passed }
  | some .passed => { s with threads := s.threads.set i (.read s.bank.current) }
  | some (.read c) =>
    { s with bank := { s.bank with current := c + 1 }, threads := s.threads.set i .moved }
  | some .moved =>
    { s with threads := s.threads.set i .before, done := s.done ++ [(i, s.bank.taken)] }

/-- `n` threads before the first step. -/
def Takers.start (m : MemoryBank) (n : Nat) : Takers := ⟨m, List.replicate n .before, []⟩

/-- A run: the schedule says which thread makes the next step. -/
def Takers.run (s : Takers) (schedule : List Nat) : Takers := schedule.foldl Takers.step s

/-- No thread is within a call. -/
def Takers.Quiet (s : Takers) : Prop := ∀ t ∈ s.threads, t = .before

instance (s : Takers) : Decidable s.Quiet := by unfold Takers.Quiet; infer_instance

end H800
