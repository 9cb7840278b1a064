import Verif.Model.LiveWords
import Verif.Spec.Bits

/-!
Words that are handed out: how many have been, and what happens to one word alone.
-/

namespace H800.Spec

/-- The number of words handed out, of 2048: `next` hands out one more, a loop all the others. -/
def handedOut (n : Nat) : LiveOp → Nat
  | .bank .next => if n < 2048 then n + 1 else n
  | .bank .forLoop => 2048
  | _ => n

/-- What an operation does to the word at address `a`, as operations on a bit-field of its own, if `n`
words have been handed out before. -/
def doneTo (a n : Nat) : LiveOp → List BfOp
  | .bank (.write x v) => if x = a ∧ Fits 48 v then [.setValue v] else []
  | .bank (.fill (some s) (some e) v) =>
    if 0 ≤ s ∧ s ≤ a ∧ a < e ∧ Fits 48 v then [.setValue v] else []
  | .bank .clear => [.setValue 0]
  | .bank _ => []
  | .wordValue x v => if x = a ∧ a < n ∧ Fits 48 v then [.setValue v] else []
  | .wordData x op => if x = a ∧ a < n then [op] else []

/-- What a history does to the word at address `a`. -/
def lifeOf (a : Nat) : Nat → List LiveOp → List BfOp
  | _, [] => []
  | n, op :: ops => doneTo a n op ++ lifeOf a (handedOut n op) ops

end H800.Spec
