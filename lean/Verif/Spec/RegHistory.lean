import Verif.Spec.Registers

/-!
The abstract register file with its iteration positions. The collective clears and iteration share
these positions, which is what the code does (see C25 and C26).
-/

namespace H800.Spec

/-- The contents, the position in each group and the position in the file. -/
structure RegState where
  mem : RegMap
  group : Nat → Nat
  file : Nat

/-- A new register file. -/
def RegState.new : RegState := ⟨fun _ _ => 0, fun _ => 0, 0⟩

/-- One operation: `next` advances a position to its end (32 registers, 8 groups); a clear zeroes
what lies between a position and its end and moves the position there; the other operations are
those of `regStep`. -/
def RegState.step (W : Nat) (st : RegState) : RegOp → RegState
  | .next g =>
    match groupIndex g with
    | some a => { st with group := fun x => if x = a then min 32 (st.group a + 1) else st.group x }
    | none => st
  | .nextFile => { st with file := min 8 (st.file + 1) }
  | .clearGroup g =>
    match groupIndex g with
    | some a =>
      { st with
        mem := fun x y => if x = a ∧ st.group a ≤ y ∧ y < 32 then 0 else st.mem x y
        group := fun x => if x = a then 32 else st.group x }
    | none => st
  | .clearFile =>
    { mem := fun x y =>
        if (st.file ≤ x ∧ x < 8) ∧ st.group x ≤ y ∧ y < 32 then 0 else st.mem x y
      group := fun x => if st.file ≤ x ∧ x < 8 then 32 else st.group x
      file := 8 }
  | op => { st with mem := regStep W st.mem op }

/-- What one would expect: a collective clear zeroes everything. -/
def regStepIdeal (W : Nat) (m : RegMap) : RegOp → RegMap
  | .clearGroup g =>
    match groupIndex g with
    | some a => fun x y => if x = a then 0 else m x y
    | none => m
  | .clearFile => fun _ _ => 0
  | op => regStep W m op

/-- Operations whose bit and slice values fit their target. -/
def ValuesFit : RegOp → Prop
  | .bit _ _ _ x => Fits 1 x
  | .slice _ _ s e x => Fits (e - s + 1).toNat x
  | _ => True

instance (op : RegOp) : Decidable (ValuesFit op) := by
  cases op <;> unfold ValuesFit <;> infer_instance

end H800.Spec
