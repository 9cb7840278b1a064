import Verif.Model.Registers
import Verif.Spec.Fields

/-!
The abstract register file: 8 x 32 numbers. Only the types of keys and operations are shared with the
model.
-/

namespace H800.Spec

/-- The documented register names, in order of their numbers. -/
def regNames : List Str := [
  py "AU1", py "AU2", py "SC", py "CSC", py "SH", py "CSH", py "UTR", py "MXR",
  py "X0", py "X1", py "X2", py "X3", py "X4", py "X5", py "X6", py "X7",
  py "R0", py "R1", py "R2", py "R3", py "R4", py "R5", py "R6", py "R7",
  py "S0", py "S1", py "S2", py "S3", py "S4", py "S5", py "S6", py "S7"]

/-- The documented aliases of registers 28, 29, 30 and 31. -/
def aliasNames : List Str := [py "RAC", py "DRAC", py "WAC", py "DWAC"]

/-- The register a subscript of a group names. -/
def regIndex : GKey → Option Nat
  | .name s => if s ∈ regNames then some (regNames.idxOf s) else none
  | .num n => if 0 ≤ n ∧ n < 32 then some n.toNat else none
  | .slice => none

/-- The group a subscript of the file names. -/
def groupIndex : FKey → Option Nat
  | .num n => if 0 ≤ n ∧ n < 8 then some n.toNat else none
  | _ => none

/-- The contents of the 8 x 32 registers. -/
abbrev RegMap := Nat → Nat → Int

/-- Change the register named by the two subscripts, if there is one. -/
def regUpdate (m : RegMap) (g : FKey) (k : GKey) (f : Int → Int) : RegMap :=
  match groupIndex g, regIndex k with
  | some a, some b => fun x y => if x = a ∧ y = b then f (m x y) else m x y
  | _, _ => m

/-- The effect of one operation on the contents, for registers of `W` bits numbered from 1 on the
left. Iteration changes nothing; the two collective clears are not described here. -/
def regStep (W : Nat) (m : RegMap) : RegOp → RegMap
  | .write g k v => regUpdate m g k fun u => if Fits W v then v else u
  | .bit g k i x => regUpdate m g k fun u =>
      if 1 ≤ i ∧ i ≤ W then putField u (W - i).toNat 1 x else u
  | .slice g k s e x => regUpdate m g k fun u =>
      if 1 ≤ s ∧ s ≤ e ∧ e ≤ W then putField u (W - e).toNat (e - s + 1).toNat x else u
  | .clearReg g k => regUpdate m g k fun _ => 0
  | _ => m

/-- Operations on single registers (and iteration) whose bit and slice values fit their target. -/
def InRange : RegOp → Prop
  | .bit _ _ _ x => Fits 1 x
  | .slice _ _ s e x => Fits (e - s + 1).toNat x
  | .clearGroup _ => False
  | .clearFile => False
  | _ => True

instance (op : RegOp) : Decidable (InRange op) := by
  cases op <;> unfold InRange <;> infer_instance

end H800.Spec
