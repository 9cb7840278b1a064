import Verif.Model.Takers

/-!
What several threads that iterate over one bank are given.
-/

namespace H800.Spec

/-- The addresses of the words given out, the first one first. -/
def givenOut : List Took → List Nat
  | [] => []
  | (_, .ok (some a)) :: l => a :: givenOut l
  | _ :: l => givenOut l

/-- The number of calls that have not ended with StopIteration. -/
def goneOn : List Took → Nat
  | [] => 0
  | (_, .ok none) :: l => goneOn l
  | _ :: l => goneOn l + 1

/-- The number of calls of `n` threads that can go on when `k` words are left. -/
def takeBound (n : Nat) : Nat → Nat
  | 0 => 0
  | k + 1 => n * (1 + takeBound n k)

/-- No thread makes a step while another one is within a call. -/
def InTurn : Takers → List Nat → Prop
  | _, [] => True
  | s, i :: l => (∀ (j : Nat) (t : Taking), s.threads[j]? = some t → t ≠ .before → j = i) ∧
      InTurn (s.step i) l

end H800.Spec
