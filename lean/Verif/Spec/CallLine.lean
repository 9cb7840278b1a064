import Verif.Spec.Display
import Verif.Model.Calls

/-!
The line printed when an instruction is made: each value stands behind its name, written as Python writes
it; an opcode is written as a named tuple (library reference, `collections.namedtuple`).
-/

namespace H800.Spec

/-- None or a number. -/
def intVal : Option Int → Val
  | none => .none
  | some n => .int n

/-- How a named tuple is written: the name of its class, and its fields with their values. -/
def RecordText (printable : Char → Bool) (cls : Str) (fields : List (Str × Val)) (t : Str) : Prop :=
  ∃ ts, List.Forall₂ (Display printable) (fields.map (·.2)) ts ∧
    t = cls ++ py "(" ++
      List.intercalate (py ", ") (List.zipWith (fun k v => k ++ py "=" ++ v) (fields.map (·.1)) ts) ++
      py ")"

/-- The fields of an opcode. -/
def opcodeFields (o : Opcode) : List (Str × Val) :=
  [(py "m", .str o.m), (py "c", .str o.c), (py "b23", intVal o.b23), (py "b7", intVal o.b7),
    (py "op", .int o.op), (py "type", .str o.type)]

/-- The line about an instruction. -/
def CallLine (printable : Char → Bool) (o : Opcode) (sequence mask a b c paddr : Option Int) (l : Str) :
    Prop :=
  ∃ record, RecordText printable (py "Opcode") (opcodeFields o) record ∧
  ∃ s m x y z p, Display printable (intVal sequence) s ∧ Display printable (intVal mask) m ∧
    Display printable (intVal a) x ∧ Display printable (intVal b) y ∧
    Display printable (intVal c) z ∧ Display printable (intVal paddr) p ∧
    l = (py "opcode:" ++ record) ++ (py " sequence:" ++ s) ++ (py " mask:" ++ m) ++ (py " a=" ++ x) ++
      (py " b=" ++ y) ++ (py " c=" ++ z) ++ (py " paddr=" ++ p)

end H800.Spec
