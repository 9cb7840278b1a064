import Mathlib.Data.Option.Defs
import Verif.Model.Operands
import Verif.Spec.Values

/-!
Which operands of an instruction are taken for which ints.
-/

namespace H800.Spec

/-- An int that is given as one. -/
def AsInt (v : PyVal) (n : Int) : Prop := v = .int n

/-- An int, or one of the floats 0.0 and 1.0 for 0 and 1. -/
def AsBit (v : PyVal) (n : Int) : Prop := v = .int n ∨ (n = 0 ∨ n = 1) ∧ v = .float (.fin n)

/-- An int, or the float 0.0 for 0. -/
def AsSeq (v : PyVal) (n : Int) : Prop := v = .int n ∨ n = 0 ∧ v = .float (.fin 0)

/-- The operands that are taken for these ints. None is None. -/
structure Meant (x : ArgsV) (y : Args) : Prop where
  sequence : Option.Rel AsSeq x.sequence y.sequence
  mask : Option.Rel AsInt x.mask y.mask
  a : Option.Rel AsBit x.a y.a
  b : Option.Rel AsBit x.b y.b
  c : Option.Rel AsBit x.c y.c
  paddr : Option.Rel AsInt x.paddr y.paddr

/-- All operands are ints or None. -/
def AllInts (x : ArgsV) : Prop :=
  ∀ v, x.sequence = some v ∨ x.mask = some v ∨ x.a = some v ∨ x.b = some v ∨ x.c = some v ∨
    x.paddr = some v → IsInt v

/-- Ints and None as operands. -/
def givenArgs (y : Args) : ArgsV :=
  ⟨y.sequence.map .int, y.mask.map .int, y.a.map .int, y.b.map .int, y.c.map .int, y.paddr.map .int⟩

end H800.Spec
