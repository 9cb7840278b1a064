import Verif.Model.Registers
import Verif.Model.Memory

/-!
Iteration over objects whose class has `__getitem__` but no `__iter__`: `BitField`
(bitfield.py 343-364), `Register` (registers.py 117-121), `MemoryModule` (memory.py 98-105) and
`ExpansionMemoryModule` (memory.py 125-132). Python then calls `obj[0]`, `obj[1]`, ... until
IndexError.
-/

namespace H800

/-- The first `fuel` rounds of `for x in obj` from index `i` on: the items delivered, and how the
loop ended (`none`: normally, by IndexError). The result is `none` if it is still running. -/
def seqIter {α : Type} (get : Int → Py α) : Nat → Int → Option (List α × Option PyErr)
  | 0, _ => none
  | fuel + 1, i =>
    match get i with
    | .error .indexError => some ([], none)
    | .error e => some ([], some e)
    | .ok x =>
      match seqIter get fuel (i + 1) with
      | none => none
      | some (xs, e) => some (x :: xs, e)

/-- `for bit in bitfield` -/
def BitField.iter (b : BitField) (fuel : Nat) : Option (List Int × Option PyErr) :=
  seqIter (fun i => b.getitem (.idx i)) fuel 0

/-- `for bit in register` -/
def Register.iter (r : Register) (fuel : Nat) : Option (List Int × Option PyErr) :=
  seqIter (fun i => r.getitem (.idx i)) fuel 0

/-- `for bank in module` -/
def MemoryModule.iter (m : MemoryModule) (fuel : Nat) : Option (List MemoryBank × Option PyErr) :=
  seqIter m.bank fuel 0

end H800
