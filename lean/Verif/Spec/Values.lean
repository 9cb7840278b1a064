import Mathlib.Data.Rat.Floor
import Verif.Model.Values

/-!
What it means that a call on a bit-field is given something that is not an int.
-/

namespace H800.Spec

/-- Cutting the fraction off `q` gives `n`: the number next to `q` on the side of zero. -/
def Truncates (q : Rat) (n : Int) : Prop :=
  (0 ≤ q → n ≤ q ∧ q < n + 1) ∧ (q ≤ 0 → q ≤ n ∧ n - 1 < q)

/-- The arithmetic of floats that never rounds, for the examples. -/
def exactOps : FloatOps := ⟨.fin, id⟩

/-- An int. -/
def IsInt (v : PyVal) : Prop := ∃ n, v = .int n

/-- A subscript that is not an int, or a slice with a bound that is not an int. -/
def StrayKey : KeyV → Prop
  | .idx i => ¬ IsInt i
  | .slice s e => ¬ (IsInt s ∧ IsInt e)

/-- A call that names a bit by something that is not an int. `set()` and `clear()` without an index, or
with one that counts as false, name no bit. -/
def StrayIndex : BfCallV → Prop
  | .get k | .put k _ => StrayKey k
  | .setValue _ => False
  | .set i | .clear i => ¬ IsInt i ∧ i.truth = true
  | .isBit i _ => ¬ IsInt i
  | .isRange s e _ => ¬ (IsInt s ∧ IsInt e)

/-- A call that is to store something that is not an int, or that names a bit by something that is
neither an int nor None. -/
def Stray : BfCallV → Prop
  | .put k x => StrayKey k ∨ ¬ IsInt x
  | .setValue x => ¬ IsInt x
  | .set i | .clear i => ¬ IsInt i ∧ i ≠ .none
  | c => StrayIndex c

/-- A key of the int model. -/
def keyOf : Key → KeyV
  | .idx i => .idx (.int i)
  | .slice s e => .slice (.ofOpt s) (.ofOpt e)

end H800.Spec
