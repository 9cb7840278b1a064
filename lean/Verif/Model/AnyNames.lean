import Verif.Model.SymbolTable

/-!
A `SymbolTable` of `h800/symbol_table.py` whose names are not only strings. Nothing checks the type of a
name: the methods ask whether it is true, use it as a key of a dict and put it into a message with `%`.

Simplifications: names are of a type whose equality is decidable and that agrees with `hash`, as that of
the built-in types does; `str(name)` does not fail. `printTable`, which sorts the names, is left out.
-/

namespace H800

/-- What the table asks of a name. -/
class PyNames (N : Type) where
  /-- `bool(name)` -/
  truth : N → Bool
  /-- `hash(name)` does not fail; it is a TypeError for lists and dicts, say -/
  hashable : N → Bool
  /-- the length of a tuple, and `none` for what is no tuple -/
  tupleLength : N → Option Nat

open PyNames (truth hashable tupleLength)

/-- `"... %s ..." % (name)` with one `%s`: the parentheses do not make a tuple, so a name that is one has
to have one element. -/
def formatName {N : Type} [PyNames N] (n : N) : Py Unit :=
  match tupleLength n with
  | none => .ok ()
  | some k => if k = 1 then .ok () else .error .typeError

/-- symbol_table.py 14-27: the attributes of an entry. -/
structure AnyEntry (N ν : Type) where
  /-- `_name` -/
  name : N
  /-- `_absoluteValue` -/
  absoluteValue : Option ν
  /-- `_complexValue` -/
  complexValue : Option ν
  /-- `_symtype` -/
  symtype : Option Str
  /-- `_file` -/
  file : Str
  /-- `_line` -/
  line : Int
  /-- `_segment` -/
  segment : Option Str
  /-- `_subsegment` -/
  subsegment : Option Str
  /-- `_references` -/
  references : List Str
  deriving DecidableEq, Repr

namespace AnyEntry

variable {N ν : Type}

/-- symbol_table.py 14-27: the constructor. -/
def init (name : N) (value : Option ν) (symtype : Option Str) (file : Str) (line : Int)
    (segment subsegment : Option Str) : AnyEntry N ν :=
  if symtype = some (py "absolute") then
    ⟨name, value, none, symtype, file, line, segment, subsegment, []⟩
  else
    ⟨name, none, value, symtype, file, line, segment, subsegment, []⟩

/-- symbol_table.py 57-59: `isValid`. -/
def isValid (e : AnyEntry N ν) : Bool := e.absoluteValue.isSome || e.complexValue.isSome

/-- symbol_table.py 70-71: `addReference`. -/
def addReference (e : AnyEntry N ν) (ref : Str) : AnyEntry N ν :=
  { e with references := e.references ++ [ref] }

end AnyEntry

/-- symbol_table.py 76-78: the attributes of a `SymbolTable`. -/
structure AnyTable (N ν : Type) where
  /-- `_symbols` -/
  symbols : Dict N (AnyEntry N ν)
  /-- `_undefs` -/
  undefs : List N
  deriving DecidableEq, Repr

namespace AnyTable

variable {N ν : Type} [DecidableEq N] [PyNames N]

/-- symbol_table.py 76-78: the constructor. -/
def init : AnyTable N ν := ⟨[], []⟩

/-- symbol_table.py 88-98: `add`; the message about a name that is there comes before the end of the call. -/
def add (t : AnyTable N ν) (name : N) (srcfile : Str) (linenum : Int) (value : Option ν)
    (symtype segment subsegment : Option Str) : AnyTable N ν × Py Unit :=
  if truth name then
    if hashable name then
      if (dget t.symbols name).isSome then (t, formatName name)
      else
        ({ symbols := dset t.symbols name
             (AnyEntry.init name value symtype srcfile linenum segment subsegment)
           undefs := if value.isNone then t.undefs ++ [name] else t.undefs }, .ok ())
    else (t, .error .typeError)
  else (t, .ok ())

/-- symbol_table.py 100-108: `update`; `name not in list(...)` compares and does not need a hash.
`self.context` is looked up before the message is made, and `entry.value` is a property without setter. -/
def update (t : AnyTable N ν) (name : N) (_value : Option ν) (_symtype : Option Str) :
    AnyTable N ν × Py Unit :=
  if truth name then (t, .error .attributeError) else (t, .ok ())

/-- symbol_table.py 132-136: the loop of `pruneUndefines` at index `i`; the message comes before the name is
deleted. -/
def pruneLoop (symbols : Dict N (AnyEntry N ν)) (i : Nat) (undefs : List N) : List N × Py Unit :=
  if h : i < undefs.length then
    match dget symbols undefs[i] with
    | none => (undefs, .error .keyError)
    | some entry =>
      if entry.isValid then
        match formatName undefs[i] with
        | .error e => (undefs, .error e)
        | .ok _ => pruneLoop symbols (i + 1) (undefs.eraseIdx i)
      else pruneLoop symbols (i + 1) undefs
  else (undefs, .ok ())
  termination_by undefs.length - i
  decreasing_by
    · rw [List.length_eraseIdx]; split <;> omega
    · omega

/-- symbol_table.py 128-138: `pruneUndefines`. -/
def pruneUndefines (t : AnyTable N ν) : AnyTable N ν × Py Unit :=
  let r := pruneLoop t.symbols 0 t.undefs
  ({ t with undefs := r.1 }, r.2)

/-- symbol_table.py 112-126: the passes of `resolve`; `prev` and `n` are `nPrevUndefs` and `nUndefs`. -/
def resolveLoop (t : AnyTable N ν) : Nat → Nat → Nat → AnyTable N ν × Py Unit
  | 0, _, _ => (t, .ok ())
  | passes + 1, prev, n =>
    if n = 0 then (t, .ok ())
    else
      match t.undefs.mapM formatName with
      | .error e => (t, .error e)
      | .ok _ =>
        match t.pruneUndefines with
        | (t', .error e) => (t', .error e)
        | (t', .ok _) =>
          if t'.undefs.length = prev then (t', .ok ())
          else resolveLoop t' passes t'.undefs.length t'.undefs.length

/-- symbol_table.py 110-126: `resolve`. -/
def resolve (t : AnyTable N ν) (maxPasses : Int) : AnyTable N ν × Py Unit :=
  resolveLoop t maxPasses.toNat t.undefs.length t.undefs.length

/-- symbol_table.py 146-150: `lookup`. -/
def lookup (t : AnyTable N ν) (name : N) : Py (Option (AnyEntry N ν)) :=
  if hashable name then .ok (dget t.symbols name) else .error .typeError

/-- `t.lookup(name).addReference(ref)` (symbol_table.py 70-71): AttributeError on None. -/
def addReference (t : AnyTable N ν) (name : N) (ref : Str) : AnyTable N ν × Py Unit :=
  match t.lookup name with
  | .error e => (t, .error e)
  | .ok none => (t, .error .attributeError)
  | .ok (some e) => ({ t with symbols := dset t.symbols name (e.addReference ref) }, .ok ())

end AnyTable

end H800
