import Verif.Model.SymbolTable

/-!
Vocabulary for statements about `SymbolTable`: histories of calls.
-/

namespace H800.Spec

/-- The arguments of a call of `add`. -/
structure AddCall (ν : Type) where
  /-- name -/
  name : Str
  /-- srcfile -/
  file : Str
  /-- linenum -/
  line : Int
  /-- value, None if missing -/
  value : Option ν
  /-- symtype -/
  symtype : Option Str
  /-- segment -/
  segment : Option Str
  /-- subsegment -/
  subsegment : Option Str

/-- A call on a symbol table. -/
inductive Call (ν : Type) where
  /-- `t.add(…)` -/
  | add (c : AddCall ν)
  /-- `t.lookup(name).addReference(ref)` -/
  | ref (name ref : Str)
  /-- `t.update(name, value, symtype)` -/
  | update (name : Str) (value : Option ν) (symtype : Option Str)
  /-- `t.pruneUndefines()` -/
  | prune
  /-- `t.resolve(maxPasses)` -/
  | resolve (maxPasses : Int)

variable {ν : Type}

/-- The table after a call; a call that raises may be caught by the caller, and the table used
further. -/
def Call.run (t : SymbolTable ν) : Call ν → SymbolTable ν
  | .add c => t.add c.name c.file c.line c.value c.symtype c.segment c.subsegment
  | .ref n r => (t.addReference n r).1
  | .update n v s => (t.update n v s).1
  | .prune => t.pruneUndefines.1
  | .resolve m => (t.resolve m).1

/-- The table after a history of calls. -/
def after (calls : List (Call ν)) : SymbolTable ν := calls.foldl Call.run SymbolTable.init

/-- The `add` calls of a history. -/
def adds : List (Call ν) → List (AddCall ν)
  | [] => []
  | .add c :: cs => c :: adds cs
  | _ :: cs => adds cs

/-- The calls with a non-empty name that was not used (`seen`) before. -/
def firsts (seen : List Str) : List (AddCall ν) → List (AddCall ν)
  | [] => []
  | c :: cs =>
    if c.name = [] ∨ c.name ∈ seen then firsts seen cs
    else c :: firsts (seen ++ [c.name]) cs

/-- An entry that holds what a call of `add` said. -/
def Holds (c : AddCall ν) (e : SymbolTableEntry ν) : Prop :=
  e.name = c.name ∧ e.file = c.file ∧ e.line = c.line ∧ e.symtype = c.symtype ∧
  e.segment = c.segment ∧ e.subsegment = c.subsegment ∧
  (c.symtype = some (py "absolute") → e.absoluteValue = c.value ∧ e.complexValue = none) ∧
  (c.symtype ≠ some (py "absolute") → e.absoluteValue = none ∧ e.complexValue = c.value)

/-- What is left of a list when the members satisfying `p` are deleted from the list while it is
iterated over by index: the successor of a deleted member is skipped. -/
def deletedWhileIterating {α : Type} (p : α → Bool) : List α → List α
  | [] => []
  | [x] => if p x then [] else [x]
  | x :: y :: l =>
    if p x then y :: deletedWhileIterating p l else x :: deletedWhileIterating p (y :: l)

end H800.Spec
