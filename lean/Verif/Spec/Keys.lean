import Verif.Model.Keys

/-! Which keys are equal to an int, and which can be keys of a dict (C218). -/

namespace H800.Spec

/-- The key is the int, or a float equal to it. -/
def Equals (k : PyKey) (n : Int) : Prop := k = .int n ∨ k = .float (.fin n)

/-- A slice. -/
def IsSlice (k : PyKey) : Prop := ∃ s e, k = .slice s e

/-- An object with a hash. -/
def HasHash : PyKey → Prop
  | .tuple _ h => h = true
  | .object h => h = true
  | .slice _ _ => False
  | _ => True

/-- A tuple that does not fit to one conversion of a format. -/
def WrongTuple (k : PyKey) : Prop := ∃ l h, k = .tuple l h ∧ l.length ≠ 1

/-- The value that the only conversion of a format gets: the key, or the element of a tuple of one. -/
def Converted (k : PyKey) (v : PyVal) : Prop :=
  (∃ n, k = .int n ∧ v = .int n) ∨ (∃ x, k = .float x ∧ v = .float x) ∨ ∃ h, k = .tuple [v] h

/-- One of the two infinite floats. -/
def Infinite (v : PyVal) : Prop := v = .float .inf ∨ v = .float .ninf

/-- What a memory or a set of registers is documented to take: an int, a slice, or the name of a register. -/
def ProperKey : PyKey → Prop
  | .int _ | .slice _ _ | .str _ => True
  | _ => False

end H800.Spec
