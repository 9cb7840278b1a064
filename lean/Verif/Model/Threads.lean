import Verif.Model.BitField

/-!
One bit-field used by several threads.

A call of a method of `BitField` reads the attribute `_value` at most once and, unless it raises,
assigns it at most once, at its end (`__setitem__` bitfield.py 366-396, `set` and `clear` 411-425,
the `value` setter 149-153, `__getitem__` 343-364, the `value` property 144-147). All else that it
uses is local to the call or an attribute that nothing assigns after the constructor (104-122).
So a call is made of two steps, between which any steps of other threads can come: reading
`_value`, and all the rest. The interpreter makes reads and assignments of an attribute one after
the other. Simplification: calls that do not use the old value (the `value` setter, `set()`,
`clear()`) and calls that raise have the first step as well; what they read there is not used.
-/

namespace H800

/-- A call of a thread on the field: an operation, `b[k]` or `b.value`. -/
inductive FieldCall where
  | op (o : BfOp)
  | get (k : Key)
  | value
  deriving DecidableEq, Repr

/-- A call that has ended: its thread, the call, and what it returned (None for operations) or
raised. -/
abbrev Ended := Nat × FieldCall × Py (Option Int)

/-- A thread: the calls that it has yet to end, and what the first of them has read of `_value`, if
it has. -/
structure FieldThread where
  /-- the calls not ended -/
  todo : List FieldCall
  /-- the value read by the first of them -/
  held : Option Int
  deriving DecidableEq, Repr

/-- The field, the threads and the calls ended, the first one first. -/
structure Threads where
  /-- the field -/
  field : BitField
  /-- the threads -/
  threads : List FieldThread
  /-- the calls ended -/
  done : List Ended

/-- The object that a call that has read `v` computes with. -/
def BitField.seen (b : BitField) (v : Int) : BitField := { b with value := v }

/-- What a call that has read `v` returns or raises; bitfield.py 144-153, 343-396, 411-425. -/
def FieldCall.answer (b : BitField) (v : Int) : FieldCall → Py (Option Int)
  | .op o => match (o.run (b.seen v)).2 with
    | .ok _ => .ok none
    | .error e => .error e
  | .get k => match (b.seen v).getitem k with
    | .ok x => .ok (some x)
    | .error e => .error e
  | .value => .ok (some v)

/-- The field after the end of a call that has read `v`: an operation that does not raise assigns
`_value` (bitfield.py 153, 396, 417, 425), whatever it is by now. -/
def FieldCall.store (b : BitField) (v : Int) : FieldCall → BitField
  | .op o => match (o.run (b.seen v)).2 with
    | .ok _ => { b with value := (o.run (b.seen v)).1.value }
    | .error _ => b
  | .get _ => b
  | .value => b

/-- A step of thread `i`: its call reads `_value`, or ends. Nothing happens if there is no such
thread or it has no calls left. -/
def Threads.step (s : Threads) (i : Nat) : Threads :=
  match s.threads[i]? with
  | none => s
  | some t =>
    match t.todo with
    | [] => s
    | c :: rest =>
      match t.held with
      | none => { s with threads := s.threads.set i ⟨c :: rest, some s.field.value⟩ }
      | some v =>
        { field := c.store s.field v
          threads := s.threads.set i ⟨rest, none⟩
          done := s.done ++ [(i, c, c.answer s.field v)] }

/-- The threads before the first step. -/
def Threads.start (b : BitField) (progs : List (List FieldCall)) : Threads :=
  ⟨b, progs.map fun p => ⟨p, none⟩, []⟩

/-- A run: the schedule says which thread makes the next step. -/
def Threads.run (s : Threads) (schedule : List Nat) : Threads := schedule.foldl Threads.step s

/-- All calls have ended. -/
def Threads.Finished (s : Threads) : Prop := ∀ t ∈ s.threads, t.todo = []

instance (s : Threads) : Decidable s.Finished := by unfold Threads.Finished; infer_instance

end H800
