import Verif.Model.Clearers

/-!
One register file that several threads clear.

`Registers.clear` (registers.py 251-253) iterates over the file itself and clears the groups that it gets,
which iterates over these (193-195); so the threads share the cursor of the file and those of the groups.
The steps of `__next__` of the file (238-243) are those of `__next__` of a group (see Model/Clearers); a step
within `clear` of a group is a step of Model/Clearers.
-/

namespace H800

/-- How far a thread is with its call of `clear`; registers.py 238-243, 251-253. -/
inductive FileClearing where
  /-- before a call of `next` (252) -/
  | before
  /-- the comparison (239) was false -/
  | passed
  /-- `+=` (242) has read the cursor -/
  | read (c : Nat)
  /-- `+=` (242) has assigned it -/
  | moved
  /-- within `clear` of this group (253) -/
  | within (g : Nat) (t : Clearing)
  /-- `clear` has returned -/
  | ended
  /-- `clear` has raised an exception -/
  | failed (e : PyErr)
  deriving DecidableEq, Repr

/-- The file, with the store of all registers and groups, and the threads. -/
structure FileClearers where
  /-- the file -/
  file : Registers
  /-- the threads -/
  threads : List FileClearing
  deriving DecidableEq, Repr

/-- registers.py 252-253: what a thread is at when `clear` of the group has come to `t`. -/
def FileClearing.after (g : Nat) : Clearing → FileClearing
  | .ended => .before
  | .failed e => .failed e
  | t => .within g t

/-- A step of thread `i` of registers.py 238-243, 251-253; nothing happens if there is no such thread or its
call is over. -/
def FileClearers.step (s : FileClearers) (i : Nat) : FileClearers :=
  match s.threads[i]? with
  | none => s
  | some .before =>
    if s.file.current ≥ Registers.NUM_GROUPS then { s with threads := s.threads.set i .ended }
    else { s with threads := s.threads.set i .passed }
  | some .passed => { s with threads := s.threads.set i (.read s.file.current) }
  | some (.read c) =>
    { s with file := { s.file with current := c + 1 }, threads := s.threads.set i .moved }
  | some .moved =>
    match dgetE s.file.slots ((s.file.current : Int) - 1) with
    | .ok g => { s with threads := s.threads.set i (.within g .before) }
    | .error e => { s with threads := s.threads.set i (.failed e) }
  | some (.within g t) =>
    match s.file.groups[g]? with
    | none => { s with threads := s.threads.set i (.failed .attributeError) }
    | some grp =>
      match Clearers.step ⟨s.file.heap, grp, [t]⟩ 0 with
      | ⟨heap, grp', ts⟩ =>
        { file := { s.file with heap := heap, groups := s.file.groups.set g grp' },
          threads := s.threads.set i (.after g (ts.headD t)) }
  | some .ended => s
  | some (.failed _) => s

/-- `n` threads before the first step. -/
def FileClearers.start (f : Registers) (n : Nat) : FileClearers := ⟨f, List.replicate n .before⟩

/-- A run: the schedule says which thread makes the next step. -/
def FileClearers.run (s : FileClearers) (schedule : List Nat) : FileClearers :=
  schedule.foldl FileClearers.step s

end H800
