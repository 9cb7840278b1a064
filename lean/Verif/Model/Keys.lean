import Verif.Model.Values

/-!
The containers of `h800/memory.py` and `h800/registers.py`, and the tables of registers, given keys of any
type. The rest of the model is for ints, names and slices with int bounds; for these the functions of this
file agree with it (C218_agrees).
-/

namespace H800

/-- A key. -/
inductive PyKey where
  /-- an int -/
  | int (n : Int)
  /-- a float -/
  | float (x : Flt)
  /-- a string -/
  | str (s : Str)
  /-- a tuple without bit-fields, which can be a key of a dict if its elements can be -/
  | tuple (elems : List PyVal) (hashable : Bool)
  /-- a slice with these bounds, no bit-fields -/
  | slice (start stop : PyVal)
  /-- any other object that is equal to no int and no string and cannot be compared with ints: None, or a
  list, which cannot be a key of a dict; bit-fields, which `range` and `%d` take for ints, are in
  `Model/FieldKeys.lean` -/
  | object (hashable : Bool)
  deriving DecidableEq, Repr

namespace PyKey

/-- `hash(key)`: TypeError for lists and slices (before Python 3.12; no slice gets this far). -/
def hash : PyKey → Py Unit
  | .tuple _ h => if h then .ok () else .error .typeError
  | .object h => if h then .ok () else .error .typeError
  | .slice _ _ => .error .typeError
  | _ => .ok ()

/-- The int that a key of a dict with ints for keys stands for: a float that is equal to an int has the
hash of the int. There is none: KeyError. -/
def ofInts : PyKey → Py Int
  | .int n => .ok n
  | .float (.fin q) => if q.den = 1 then .ok q.num else .error .keyError
  | k => do
    k.hash
    throw .keyError

/-- `"...%d..." % value` -/
def formatD : PyVal → Py Unit
  | .int _ => .ok ()
  | .float (.fin _) => .ok ()
  | .float .nan => .error .valueError
  | .float _ => .error .overflowError
  | .other _ => .error .typeError

/-- `"...%d..." % key`; a tuple has the values to be formatted. -/
def formatKeyD : PyKey → Py Unit
  | .int n => formatD (.int n)
  | .float x => formatD (.float x)
  | .tuple [v] _ => formatD v
  | _ => .error .typeError

/-- `"...%s..." % key` -/
def formatKeyS : PyKey → Py Unit
  | .tuple [_] _ => .ok ()
  | .tuple _ _ => .error .typeError
  | _ => .ok ()

end PyKey

namespace MemoryBank

/-- memory.py 47-54: `bank[key]`: one value, or a list of them. -/
def getK (m : MemoryBank) : PyKey → Py (Int ⊕ List Int)
  | .slice (.int s) (.int e) => do
    let l ← m.getList (pyRange s e)
    return .inr l
  | .slice _ _ => .error .typeError
  | k => do
    let a ← k.ofInts
    let v ← m.get a
    return .inl v

/-- memory.py 56-61: `bank[key] = value`. -/
def setK (F : FloatOps) (m : MemoryBank) (k : PyKey) (v : PyVal) : MemoryBank × Py Unit :=
  match k with
  | .slice s e => m.setSliceV F s e v
  | k =>
    match k.ofInts with
    | .error e => (m, .error e)
    | .ok a => m.setV F a v

end MemoryBank

namespace MemoryModule

/-- memory.py 98-105, 125-132: `module[key]`. -/
def getK (m : MemoryModule) : PyKey → Py (MemoryBank ⊕ List MemoryBank)
  | .slice (.int s) (.int e) => do
    let l ← m.bankList (pyRange s e)
    return .inr l
  | .slice _ _ => .error .typeError
  | k => do
    let i ← k.ofInts
    let b ← m.bank i
    return .inl b

end MemoryModule

namespace RegisterGroup

/-- registers.py 154-164: `group[key]`. -/
def getK (g : RegisterGroup) : PyKey → Py Nat
  | .slice _ _ => .error .valueError
  | .str s => g.getitem (.name s)
  | .int n => g.getitem (.num n)
  | .float x =>
    if x.lt (.fin 0) || Flt.le (.fin REGISTERS.length) x then do
      PyKey.formatD (.float x)
      throw .valueError
    else do
      let n ← (PyKey.float x).ofInts
      dgetE g.regs (.num n)
  | .tuple _ _ => .error .typeError
  | .object _ => .error .typeError

/-- registers.py 166-172: `group[key] = register`. The keys of `REGISTERS` (172) are strings. -/
def setK (g : RegisterGroup) (k : PyKey) (r : Nat) : RegisterGroup × Py Unit :=
  match k with
  | .slice _ _ => (g, .error .valueError)
  | .str s => g.setitem (.name s) r
  | k =>
    match k.hash with
    | .error e => (g, .error e)
    | .ok _ => (g, .error .keyError)

end RegisterGroup

namespace Registers

/-- registers.py 214-222: `registers[key]`. -/
def getK (s : Registers) : PyKey → Py Nat
  | .slice _ _ => .error .valueError
  | .int n => s.getitem (.num n)
  | k => do
    k.formatKeyS
    throw .valueError

/-- registers.py 224-230: `registers[key] = group`. -/
def setK (s : Registers) (k : PyKey) (g : Nat) : Registers × Py Unit :=
  match k with
  | .slice _ _ => (s, .error .valueError)
  | .int n => s.setitem (.num n) g
  | k =>
    match k.formatKeyS with
    | .error e => (s, .error e)
    | .ok _ => (s, .error .valueError)

end Registers

/-- The name with the number that a key is equal to. -/
def nameOfK (k : PyKey) (d : Dict Str Int) : Option Str :=
  match k with
  | .int n => nameOf n d
  | .float (.fin q) => if q.den = 1 then nameOf q.num d else none
  | _ => none

/-- registers.py 52-57: `registerName(number)`. -/
def registerNameK (k : PyKey) : Py Str :=
  match nameOfK k REGISTERS with
  | some name => .ok name
  | none => do
    k.formatKeyD
    throw .valueError

/-- registers.py 60-68: `registerAlias(number)`. -/
def registerAliasK (k : PyKey) : Py Str :=
  match nameOfK k ALIASES with
  | some name => .ok name
  | none => match nameOfK k REGISTERS with
    | some name => .ok name
    | none => do
      k.formatKeyD
      throw .valueError

/-- registers.py 71-77: `registerNumber(name)`. -/
def registerNumberK : PyKey → Py Int
  | .str s => registerNumber s
  | k => do
    k.hash
    k.formatKeyS
    throw .valueError

end H800
