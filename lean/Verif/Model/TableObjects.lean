import Verif.Spec.SymbolTable

/-!
Model of a `SymbolTable` of `h800/symbol_table.py` together with a caller who changes the objects that
the table hands out: `symbols` and `undefines` return the dict and the list the table works with,
`lookup` the entry itself, and `references` the list of the entry.

Entries are objects of a heap and the dict holds references to them, so that one entry can be under two
names. The caller may change the list of undefined names, or of references, to anything; may put any
entry that was ever made under any name; and may take names out of the dict. Not modelled: assignments
to attributes beginning with an underscore.
-/

namespace H800

open Spec

/-- symbol_table.py 76-78: a table, and all entries ever made. -/
structure TableObj (ν : Type) where
  /-- All entries. -/
  heap : List (SymbolTableEntry ν)
  /-- `_symbols`, with the places of the entries. -/
  symbols : Dict Str Nat
  /-- `_undefs` -/
  undefs : List Str

/-- What is done to a table. -/
inductive TableAct (ν : Type) where
  /-- a call of a method -/
  | call (c : Call ν)
  /-- `SymbolTableEntry(…)` (symbol_table.py 14-27) called by the caller -/
  | make (c : AddCall ν)
  /-- `t.symbols[name] = e`, with the entry at a place (symbol_table.py 80-82) -/
  | put (name : Str) (place : Nat)
  /-- `del t.symbols[name]` (symbol_table.py 80-82) -/
  | del (name : Str)
  /-- the list `t.undefines` (symbol_table.py 84-86) is changed -/
  | names (f : List Str → List Str)
  /-- the list `e.references` (symbol_table.py 37-39) of an entry is changed -/
  | refs (place : Nat) (f : List Str → List Str)

namespace TableObj

variable {ν : Type}

/-- symbol_table.py 76-78: the constructor. -/
def init : TableObj ν := ⟨[], [], []⟩

/-- symbol_table.py 14-27: an entry made with the arguments of a call. -/
def newEntry (c : AddCall ν) : SymbolTableEntry ν :=
  SymbolTableEntry.init c.name c.value c.symtype c.file c.line c.segment c.subsegment

/-- The entry at a place. (There is one at each place that the model ever asks for.) -/
def entry (t : TableObj ν) (r : Nat) : SymbolTableEntry ν :=
  (t.heap[r]?).getD (SymbolTableEntry.init [] none none [] 0 none none)

/-- The table as its methods see it: the entries in place of the references to them. -/
def seen (t : TableObj ν) : SymbolTable ν :=
  ⟨t.symbols.map fun p => (p.1, t.entry p.2), t.undefs⟩

/-- The list of references of one entry is changed. -/
def setRefs (t : TableObj ν) (r : Nat) (f : List Str → List Str) : TableObj ν :=
  { t with heap := t.heap.modify r fun e => { e with references := f e.references } }

/-- What a step does, and how it ends.

`add` (symbol_table.py 88-98) makes an entry only for a new name; `addReference` (70-71) appends to the
list of the entry that `lookup` (146-150) gives, AttributeError on None; `update` (100-108) raises before
it changes anything; `pruneUndefines` (128-138) and `resolve` (110-126) read the entries and change the
list of names only. -/
def step (t : TableObj ν) : TableAct ν → TableObj ν × Py Unit
  | .call (.add c) =>
    if c.name = [] then (t, .ok ())
    else if (dget t.symbols c.name).isSome then (t, .ok ())
    else
      ({ heap := t.heap ++ [newEntry c]
         symbols := dset t.symbols c.name t.heap.length
         undefs := if c.value.isNone then t.undefs ++ [c.name] else t.undefs }, .ok ())
  | .call (.ref n r) =>
    match dget t.symbols n with
    | none => (t, .error .attributeError)
    | some place => (t.setRefs place (· ++ [r]), .ok ())
  | .call (.update n v s) => (t, (t.seen.update n v s).2)
  | .call .prune => ({ t with undefs := t.seen.pruneUndefines.1.undefs }, t.seen.pruneUndefines.2)
  | .call (.resolve m) => ({ t with undefs := (t.seen.resolve m).1.undefs }, (t.seen.resolve m).2.1)
  | .make c => ({ t with heap := t.heap ++ [newEntry c] }, .ok ())
  | .put n r => if r < t.heap.length then ({ t with symbols := dset t.symbols n r }, .ok ()) else (t, .ok ())
  | .del n =>
    if (dget t.symbols n).isSome then ({ t with symbols := t.symbols.filter fun p => p.1 ≠ n }, .ok ())
    else (t, .error .keyError)
  | .names f => ({ t with undefs := f t.undefs }, .ok ())
  | .refs r f => (t.setRefs r f, .ok ())

/-- A history; the caller catches exceptions. -/
def run (t : TableObj ν) (acts : List (TableAct ν)) : TableObj ν :=
  acts.foldl (fun t a => (t.step a).1) t

end TableObj

end H800
