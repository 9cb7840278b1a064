import Verif.Model.Registers

/-!
One register group that several threads clear.

`RegisterGroup.clear` (registers.py 193-195) iterates over the group itself, so that the threads share the
cursor. `__next__` (180-185) reads `_current` and compares it, reads it again and assigns it the next number
(`+=` is a read and an assignment), and reads it a third time for the register that it returns; clearing
that register is one assignment (bitfield.py 419-425). Between these steps any steps of other threads can
come. The last read and the look-up in `_registers`, which nothing changes, are one step.
-/

namespace H800

/-- How far a thread is with its call of `clear`; registers.py 180-185, 193-195. -/
inductive Clearing where
  /-- before a call of `next` (194) -/
  | before
  /-- the comparison (181) was false -/
  | passed
  /-- `+=` (184) has read the cursor -/
  | read (c : Nat)
  /-- `+=` (184) has assigned it -/
  | moved
  /-- `next` has returned this register (185) -/
  | got (r : Nat)
  /-- `clear` has returned -/
  | ended
  /-- `clear` has raised an exception -/
  | failed (e : PyErr)
  deriving DecidableEq, Repr

/-- The store, the group and the threads. -/
structure Clearers where
  /-- the store of all registers -/
  heap : List Register
  /-- the group -/
  group : RegisterGroup
  /-- the threads -/
  threads : List Clearing

/-- A step of thread `i` of registers.py 180-185, 193-195; nothing happens if there is no such thread or
its call is over. -/
def Clearers.step (s : Clearers) (i : Nat) : Clearers :=
  match s.threads[i]? with
  | none => s
  | some .before =>
    if s.group.current ≥ REGISTERS.length then { s with threads := s.threads.set i .ended }
    else { s with threads := s.threads.set i .passed }
  | some .passed => { s with threads := s.threads.set i (.read s.group.current) }
  | some (.read c) =>
    { s with group := { s.group with current := c + 1 }, threads := s.threads.set i .moved }
  | some .moved =>
    match dgetE s.group.regs (.num ((s.group.current : Int) - 1)) with
    | .ok r => { s with threads := s.threads.set i (.got r) }
    | .error e => { s with threads := s.threads.set i (.failed e) }
  | some (.got r) =>
    { s with heap := RegisterGroup.upd s.heap r Register.clear, threads := s.threads.set i .before }
  | some .ended => s
  | some (.failed _) => s

/-- `n` threads before the first step. -/
def Clearers.start (heap : List Register) (g : RegisterGroup) (n : Nat) : Clearers :=
  ⟨heap, g, List.replicate n .before⟩

/-- A run: the schedule says which thread makes the next step. -/
def Clearers.run (s : Clearers) (schedule : List Nat) : Clearers := schedule.foldl Clearers.step s

end H800
