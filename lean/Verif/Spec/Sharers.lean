import Verif.Model.Sharers

/-!
Calls on a memory bank one after the other, for comparison with the threads of `Model/Sharers`.
-/

namespace H800.Spec

/-- One call alone, by the model of the bank for one thread: the bank after it, and what it returns
or raises. -/
def BankCall.alone (m : MemoryBank) : BankCall → MemoryBank × Py (List Int)
  | .fill v as => ((m.setList v as).1, (m.setList v as).2.map fun _ => [])
  | .read as => (m, m.getList as)

/-- Calls one after the other, each with its thread: the bank at the end. -/
def serialBank (m : MemoryBank) : List (Nat × BankCall) → MemoryBank
  | [] => m
  | (_, c) :: l => serialBank (BankCall.alone m c).1 l

/-- Calls one after the other, each with its thread: what each has returned or raised. -/
def serialAnswers (m : MemoryBank) : List (Nat × BankCall) → List BankDone
  | [] => []
  | (i, c) :: l => (i, c, (BankCall.alone m c).2) :: serialAnswers (BankCall.alone m c).1 l

/-- What the threads have seen and left could be that of calls one after the other, in some order
that keeps the order of the calls of each thread. -/
def SerialBank (m : MemoryBank) (s : Sharers) : Prop :=
  ∃ order, serialBank m order = s.bank ∧ (serialAnswers m order).Perm s.done ∧
    ∀ i, (serialAnswers m order).filter (·.1 = i) = s.done.filter (·.1 = i)

/-- The calls of a program touch word `a`. -/
def TouchesWord (prog : List BankCall) (a : Int) : Prop := ∃ c ∈ prog, a ∈ c.addrs

/-- A call of a program assigns `v` to word `a`. -/
def AssignsWord (prog : List BankCall) (v a : Int) : Prop := ∃ as, BankCall.fill v as ∈ prog ∧ a ∈ as

/-- No thread makes a step while another one is within a call. -/
def OneWithin : Sharers → List Nat → Prop
  | _, [] => True
  | s, i :: l => (∀ (j : Nat) (t : BankThread), s.threads[j]? = some t → t.within ≠ none → j = i) ∧
      OneWithin (s.step i) l

end H800.Spec
