import Verif.Py

/-!
Model of the classes `SymbolTableEntry` and `SymbolTable` of `h800/symbol_table.py`.

Values are never inspected except for being None, so their type `ν` is a parameter. Names are
strings; the name None behaves as the empty string (`if name:`). The text of what is
printed is in `Verif/Model/TableText.lean`.
-/

namespace H800

/-- symbol_table.py 14-27: the attributes of an entry. -/
structure SymbolTableEntry (ν : Type) where
  /-- `_name` -/
  name : Str
  /-- `_absoluteValue` -/
  absoluteValue : Option ν
  /-- `_complexValue` -/
  complexValue : Option ν
  /-- `_symtype` -/
  symtype : Option Str
  /-- `_file` -/
  file : Str
  /-- `_line` -/
  line : Int
  /-- `_segment` -/
  segment : Option Str
  /-- `_subsegment` -/
  subsegment : Option Str
  /-- `_references` -/
  references : List Str
  deriving DecidableEq, Repr

namespace SymbolTableEntry

variable {ν : Type}

/-- symbol_table.py 14-27: the constructor. -/
def init (name : Str) (value : Option ν) (symtype : Option Str) (file : Str) (line : Int)
    (segment subsegment : Option Str) : SymbolTableEntry ν :=
  if symtype = some (py "absolute") then
    ⟨name, value, none, symtype, file, line, segment, subsegment, []⟩
  else
    ⟨name, none, value, symtype, file, line, segment, subsegment, []⟩

/-- symbol_table.py 33-35: `value` reads `_value`, which is never set. -/
def value (_ : SymbolTableEntry ν) : Py ν := .error .attributeError

/-- symbol_table.py 57-59: `isValid`. -/
def isValid (e : SymbolTableEntry ν) : Bool := e.absoluteValue.isSome || e.complexValue.isSome

/-- symbol_table.py 61-62: `isAbsolute`. -/
def isAbsolute (e : SymbolTableEntry ν) : Bool := e.absoluteValue.isSome

/-- symbol_table.py 64-65: `isComplex`. -/
def isComplex (e : SymbolTableEntry ν) : Bool := e.complexValue.isSome

/-- symbol_table.py 67-68: `isMultiple`. -/
def isMultiple (e : SymbolTableEntry ν) : Bool := e.isAbsolute && e.isComplex

/-- symbol_table.py 70-71: `addReference`. -/
def addReference (e : SymbolTableEntry ν) (ref : Str) : SymbolTableEntry ν :=
  { e with references := e.references ++ [ref] }

end SymbolTableEntry

/-- symbol_table.py 76-78: the attributes of a `SymbolTable`. -/
structure SymbolTable (ν : Type) where
  /-- `_symbols` -/
  symbols : Dict Str (SymbolTableEntry ν)
  /-- `_undefs` -/
  undefs : List Str
  deriving DecidableEq, Repr

/-- The messages of `resolve` that report its outcome. -/
inductive ResolveMsg where
  /-- `Symbol pass %d: %d undefined symbols` -/
  | pass (i : Nat) (n : Nat)
  /-- `All symbols resolved!` -/
  | allResolved
  /-- `ERROR: No progress resolving symbols, %d undefined symbols` -/
  | noProgress (n : Nat)
  deriving DecidableEq, Repr

namespace SymbolTable

variable {ν : Type}

/-- symbol_table.py 76-78: the constructor. -/
def init : SymbolTable ν := ⟨[], []⟩

/-- symbol_table.py 88-98: `add`. -/
def add (t : SymbolTable ν) (name srcfile : Str) (linenum : Int) (value : Option ν)
    (symtype segment subsegment : Option Str) : SymbolTable ν :=
  if name = [] then t
  else if (dget t.symbols name).isSome then t
  else
    { symbols := dset t.symbols name
        (SymbolTableEntry.init name value symtype srcfile linenum segment subsegment)
      undefs := if value.isNone then t.undefs ++ [name] else t.undefs }

/-- symbol_table.py 100-108: `update`. `self.context` does not exist, and `entry.value` is a property
without setter; both raise before anything is changed. -/
def update (t : SymbolTable ν) (name : Str) (_value : Option ν) (_symtype : Option Str) :
    SymbolTable ν × Py Unit :=
  if name = [] then (t, .ok ())
  else if ¬ (dget t.symbols name).isSome then (t, .error .attributeError)
  else (t, .error .attributeError)

/-- symbol_table.py 132-136: the loop of `pruneUndefines` at index `i`, deleting from the list it
iterates over. -/
def pruneLoop (symbols : Dict Str (SymbolTableEntry ν)) (i : Nat) (undefs : List Str) :
    List Str × Py Unit :=
  if h : i < undefs.length then
    match dget symbols undefs[i] with
    | none => (undefs, .error .keyError)
    | some entry =>
      if entry.isValid then pruneLoop symbols (i + 1) (undefs.eraseIdx i)
      else pruneLoop symbols (i + 1) undefs
  else (undefs, .ok ())
  termination_by undefs.length - i
  decreasing_by
    · rw [List.length_eraseIdx]; split <;> omega
    · omega

/-- symbol_table.py 128-138: `pruneUndefines`. -/
def pruneUndefines (t : SymbolTable ν) : SymbolTable ν × Py Unit :=
  let r := pruneLoop t.symbols 0 t.undefs
  ({ t with undefs := r.1 }, r.2)

/-- symbol_table.py 112-126: the passes of `resolve` from pass `i` on; `prev` and `n` are
`nPrevUndefs` and `nUndefs`. -/
def resolveLoop (t : SymbolTable ν) : Nat → Nat → Nat → Nat →
    SymbolTable ν × Py Unit × List ResolveMsg
  | 0, _, _, _ => (t, .ok (), [])
  | passes + 1, i, prev, n =>
    if n = 0 then (t, .ok (), [.pass i n, .allResolved])
    else
      match t.pruneUndefines with
      | (t', .error e) => (t', .error e, [.pass i n])
      | (t', .ok _) =>
        if t'.undefs.length = prev then (t', .ok (), [.pass i n, .noProgress t'.undefs.length])
        else
          let r := resolveLoop t' passes (i + 1) t'.undefs.length t'.undefs.length
          (r.1, r.2.1, .pass i n :: r.2.2)

/-- symbol_table.py 110-126: `resolve`; `range(maxPasses)` is empty for a negative number. -/
def resolve (t : SymbolTable ν) (maxPasses : Int) : SymbolTable ν × Py Unit × List ResolveMsg :=
  resolveLoop t maxPasses.toNat 0 t.undefs.length t.undefs.length

/-- symbol_table.py 140-141: `getNumSymbols`. -/
def getNumSymbols (t : SymbolTable ν) : Nat := t.symbols.length

/-- symbol_table.py 143-144: `getNumUndefs`. -/
def getNumUndefs (t : SymbolTable ν) : Nat := t.undefs.length

/-- symbol_table.py 146-150: `lookup`. -/
def lookup (t : SymbolTable ν) (name : Str) : Option (SymbolTableEntry ν) := dget t.symbols name

/-- `t.lookup(name).addReference(ref)` (symbol_table.py 70-71): AttributeError on None. Entries are
shared, so the table sees the change. -/
def addReference (t : SymbolTable ν) (name ref : Str) : SymbolTable ν × Py Unit :=
  match dget t.symbols name with
  | none => (t, .error .attributeError)
  | some e => ({ t with symbols := dset t.symbols name (e.addReference ref) }, .ok ())

/-- symbol_table.py 160-161, 165-166, 174-175: the entries printed for a list of names. -/
def printed (t : SymbolTable ν) (names : List Str) : Py (List (SymbolTableEntry ν)) :=
  names.mapM fun n => dgetE t.symbols n

/-- symbol_table.py 152-166: `printTable`: the entries printed under "Defined symbols", and those
under "Undefined symbols" (a heading that is left out when there are none). -/
def printTable (t : SymbolTable ν) :
    Py (List (SymbolTableEntry ν) × Option (List (SymbolTableEntry ν))) := do
  let defs ← t.printed (pySortedStr (t.symbols.map (·.1)))
  if t.undefs.length > 0 then
    let undefs ← t.printed t.undefs
    return (defs, some undefs)
  else return (defs, none)

/-- symbol_table.py 168-175: `printUndefs`: the number and the entries printed. -/
def printUndefs (t : SymbolTable ν) : Py (Nat × List (SymbolTableEntry ν)) := do
  return (t.undefs.length, ← t.printed t.undefs)

end SymbolTable

end H800
