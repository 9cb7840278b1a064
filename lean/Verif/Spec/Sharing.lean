import Verif.Model.Sharing
import Verif.Spec.Registers

/-!
The abstract register file with sharing: eight tables of 32 numbers, and eight references to them.
-/

namespace H800.Spec

/-- `ref n` is the table group number `n` refers to, `tables` are the contents. -/
structure SharedFile where
  ref : Nat → Nat
  tables : RegMap

/-- The subscript, replaced by the number of the table it refers to. -/
def through (ref : Nat → Nat) (g : FKey) : FKey :=
  match groupIndex g with
  | some a => .num (ref a)
  | none => g

/-- The operation on the tables. -/
def opThrough (ref : Nat → Nat) : RegOp → RegOp
  | .write g k v => .write (through ref g) k v
  | .bit g k i x => .bit (through ref g) k i x
  | .slice g k s e x => .slice (through ref g) k s e x
  | .clearReg g k => .clearReg (through ref g) k
  | .next g => .next (through ref g)
  | .clearGroup g => .clearGroup (through ref g)
  | .nextFile => .nextFile
  | .clearFile => .clearFile

/-- One operation: an assignment between groups redirects a reference and moves no numbers. -/
def sharedStep (W : Nat) (s : SharedFile) : FileOp → SharedFile
  | .op o => { s with tables := regStep W s.tables (opThrough s.ref o) }
  | .assign a b =>
    match groupIndex a, groupIndex b with
    | some x, some y => { s with ref := fun n => if n = x then s.ref y else s.ref n }
    | _, _ => s

/-- A new file: every group has its own table, all zero. -/
def newShared : SharedFile := ⟨fun n => n, fun _ _ => 0⟩

/-- The operations on single registers and iteration with values that fit, and assignments. -/
def InRangeF : FileOp → Prop
  | .op o => InRange o
  | .assign _ _ => True

end H800.Spec
