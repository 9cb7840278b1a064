import Verif.Model.Threads

/-!
Calls on a bit-field one after the other, for comparison with the threads of `Model/Threads`.
-/

namespace H800.Spec

/-- One call alone: the field after it. -/
def FieldCall.next (b : BitField) : FieldCall → BitField
  | .op o => (o.run b).1
  | _ => b

/-- One call alone: what it returns or raises. -/
def FieldCall.tells (b : BitField) : FieldCall → Py (Option Int)
  | .op o => (o.run b).2.map fun _ => none
  | .get k => (b.getitem k).map some
  | .value => .ok (some b.value)

/-- Calls one after the other, each with its thread: the field at the end. -/
def serialField (b : BitField) : List (Nat × FieldCall) → BitField
  | [] => b
  | (_, c) :: l => serialField (FieldCall.next b c) l

/-- Calls one after the other, each with its thread: what each has returned or raised. -/
def serialDone (b : BitField) : List (Nat × FieldCall) → List Ended
  | [] => []
  | (i, c) :: l => (i, c, FieldCall.tells b c) :: serialDone (FieldCall.next b c) l

/-- What the threads have seen and left could be that of calls one after the other, in some order
that keeps the order of the calls of each thread. -/
def Serial (b : BitField) (s : Threads) : Prop :=
  ∃ order, serialField b order = s.field ∧ (serialDone b order).Perm s.done ∧
    ∀ i, (serialDone b order).filter (·.1 = i) = s.done.filter (·.1 = i)

/-- The operations among the calls ended that have not raised. -/
def stored : List Ended → List BfOp
  | [] => []
  | (_, .op o, .ok _) :: l => o :: stored l
  | _ :: l => stored l

/-- The calls of thread `i` among the calls ended. -/
def endedBy (i : Nat) (l : List Ended) : List FieldCall :=
  (l.filter (·.1 = i)).map (·.2.1)

/-- An operation that makes no use of the old value. -/
def Blind : BfOp → Prop
  | .setitem _ _ => False
  | .setValue _ => True
  | .set i => i = none ∨ i = some 0
  | .clear i => i = none ∨ i = some 0

/-- The program makes calls that read only. -/
def ReadsOnly (prog : List FieldCall) : Prop := ∀ o, FieldCall.op o ∉ prog

/-- No operation that uses the old value ends after the value that it has read is gone. -/
def Undisturbed : Threads → List Nat → Prop
  | _, [] => True
  | s, i :: l =>
    (∀ o rest v, s.threads[i]? = some ⟨.op o :: rest, some v⟩ → v = s.field.value ∨ Blind o) ∧
      Undisturbed (s.step i) l

end H800.Spec
