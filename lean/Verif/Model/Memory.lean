import Verif.Model.Word

/-!
Model of `h800/memory.py`.

`_data` is a dict with keys `0..BANK_SIZE-1`; nothing ever adds or removes a key, so it is a list
of words indexed by address. A `Word` object handed out by iteration is identified with its
address. Keys are ints; other keys are in `Verif/Model/Keys.lean`.
-/

namespace H800

/-- memory.py 13-18 -/
structure MemoryBank where
  words : List Word
  current : Nat
  deriving DecidableEq, Repr

namespace MemoryBank

/-- memory.py 11 -/
def BANK_SIZE : Nat := 2048

/-- memory.py 10, 17 -/
def MEMORY_WIDTH : Nat := 48

/-- memory.py 13-18: `MemoryBank()`. -/
def init : Py MemoryBank := do
  let w ← Word.init 0
  return ⟨List.replicate BANK_SIZE w, 0⟩

/-- `self._data[key]`: KeyError unless the key is an address of the bank. -/
def word (m : MemoryBank) (a : Int) : Py Word :=
  if a < 0 then .error .keyError
  else match m.words[a.toNat]? with
    | some w => .ok w
    | none => .error .keyError

/-- memory.py 53-54: `bank[key]`. -/
def get (m : MemoryBank) (a : Int) : Py Int := do
  let w ← m.word a
  return w.value

/-- memory.py 50-51: the loop of a slice read. -/
def getList (m : MemoryBank) : List Int → Py (List Int)
  | [] => .ok []
  | a :: as => do
    let v ← m.get a
    let vs ← m.getList as
    return v :: vs

/-- memory.py 48-52: `bank[start:stop]`; `range(None, ..)` raises TypeError. -/
def getSlice (m : MemoryBank) (start stop : Option Int) : Py (List Int) := do
  let s ← BitField.needInt start
  let e ← BitField.needInt stop
  m.getList (pyRange s e)

/-- memory.py 60-61: `bank[key] = value`: the word is looked up, then its setter called. -/
def set (m : MemoryBank) (a v : Int) : MemoryBank × Py Unit :=
  match m.word a with
  | .error e => (m, .error e)
  | .ok w =>
    match w.setValue v with
    | (w', r) => ({ m with words := m.words.set a.toNat w' }, r)

/-- memory.py 58-59: the loop of a slice write; it stops at the first exception. -/
def setList (m : MemoryBank) (v : Int) : List Int → MemoryBank × Py Unit
  | [] => (m, .ok ())
  | a :: as =>
    match m.set a v with
    | (m', .ok _) => m'.setList v as
    | (m', .error e) => (m', .error e)

/-- memory.py 57-59: `bank[start:stop] = value`. -/
def setSlice (m : MemoryBank) (start stop : Option Int) (v : Int) : MemoryBank × Py Unit :=
  match BitField.needInt start, BitField.needInt stop with
  | .ok s, .ok e => m.setList v (pyRange s e)
  | .error e, _ => (m, .error e)
  | _, .error e => (m, .error e)

/-- memory.py 63-64 -/
def len (m : MemoryBank) : Nat := m.words.length

/-- memory.py 69-74: `next(bank)`; `none` is StopIteration, otherwise the address of the word. -/
def next (m : MemoryBank) : MemoryBank × Option Nat :=
  if m.current ≥ m.len then (m, none)
  else ({ m with current := m.current + 1 }, some m.current)

/-- A `for word in bank` loop with at most `fuel` calls of `next`: the addresses visited. -/
def loop : Nat → MemoryBank → MemoryBank × List Nat
  | 0, m => (m, [])
  | fuel + 1, m =>
    match m.next with
    | (m', none) => (m', [])
    | (m', some a) =>
      let (m'', as) := loop fuel m'
      (m'', a :: as)

/-- memory.py 66-74: a complete `for word in bank` loop (`__iter__` returns the bank itself and does
not reset the cursor). `len + 1` calls of `next` always reach StopIteration. -/
def forLoop (m : MemoryBank) : MemoryBank × List Nat := loop (m.len + 1) m

/-- memory.py 82-84: `clear` iterates over the dict keys, not over the bank. -/
def clear (m : MemoryBank) : MemoryBank × Py Unit :=
  m.setList 0 ((List.range m.len).map fun (i : Nat) => (i : Int))

/-- memory.py 76-80: `"0o%016o "` for each word. -/
def repr (m : MemoryBank) : Str :=
  m.words.flatMap fun w => ['0', 'o'] ++ padLeft '0' 16 (numeral 8 w.value.natAbs) ++ [' ']

/-- memory.py 20-22: `bank._checkValue(value)`, called only by the setter below. -/
def checkValue (v : Int) : Py Unit :=
  if v < 0 ∨ v > 2 ^ MEMORY_WIDTH - 1 then .error .valueError else .ok ()

/-- memory.py 24-26: `bank._checkAddress(address)`, called only by the getter and the setter below. -/
def checkAddress (address : Int) : Py Unit :=
  if address < 0 ∨ address > 2047 then .error .valueError else .ok ()

/-- memory.py 28-32: the signature of the `value` getter, declared a property. -/
def valueGetSig : List (Str × Bool) := [(py "self", false), (py "address", false), (py "parity", true)]

/-- memory.py 34-41: the signature of the `value` setter. -/
def valueSetSig : List (Str × Bool) :=
  [(py "self", false), (py "address", false), (py "value", false), (py "parity", true)]

/-- memory.py 28-32: the body of the getter. `int()` of a `Word` is a TypeError (no `__int__`). -/
def valueGetBody (m : MemoryBank) (address : Int) : Py Int := do
  checkAddress address
  let _ ← m.word address
  throw .typeError

/-- `bank.value`: the property protocol calls the getter with `self` as the only argument. The body
would need an address, which does not exist if binding succeeds; any `address` stands for it. -/
def valueGet (m : MemoryBank) (address : Int) : Py Int := do
  bindCall valueGetSig 1 []
  m.valueGetBody address

/-- `bank.value = x`: the property protocol calls the setter with `self` and `x` only. The body
(34-41) would subscript a `Word`, a TypeError. -/
def valueSet (m : MemoryBank) (_x : Int) : MemoryBank × Py Unit :=
  match bindCall valueSetSig 2 [] with
  | .error e => (m, .error e)
  | .ok _ => (m, .error .typeError)

end MemoryBank

/-- memory.py 87-111 and 114-138: a module is a fixed number of banks (4 or 8). `_data` has keys
`0..NUM_BANKS-1`, never changed (there is no `__setitem__`). -/
structure MemoryModule where
  banks : List MemoryBank
  deriving DecidableEq, Repr

namespace MemoryModule

/-- memory.py 90, 117: `NUM_BANKS` of the two module classes. -/
def numBanks (expansion : Bool) : Nat := if expansion then 8 else 4

/-- memory.py 92-96, 119-123 -/
def init (expansion : Bool) : Py MemoryModule := do
  let b ← MemoryBank.init
  return ⟨List.replicate (numBanks expansion) b⟩

/-- memory.py 104-105, 131-132: `module[key]`. -/
def bank (m : MemoryModule) (k : Int) : Py MemoryBank :=
  if k < 0 then .error .keyError
  else match m.banks[k.toNat]? with
    | some b => .ok b
    | none => .error .keyError

/-- memory.py 99-103, 126-130: the loop of `module[start:stop]`. -/
def bankList (m : MemoryModule) : List Int → Py (List MemoryBank)
  | [] => .ok []
  | k :: ks => do
    let b ← m.bank k
    let bs ← m.bankList ks
    return b :: bs

/-- memory.py 107-108 -/
def len (m : MemoryModule) : Nat := m.banks.length

/-- memory.py 110-111, 137-138 -/
def size (expansion : Bool) (m : MemoryModule) : Py Nat := do
  let b ← m.bank 0
  return numBanks expansion * b.len

end MemoryModule

/-- Client operations on a memory bank. -/
inductive MemOp where
  | write (a v : Int)
  | fill (start stop : Option Int) (v : Int)
  | clear
  | next
  | forLoop
  deriving DecidableEq, Repr

/-- One operation; an exception is caught by the client. -/
def MemOp.run (m : MemoryBank) : MemOp → MemoryBank
  | .write a v => (m.set a v).1
  | .fill s e v => (m.setSlice s e v).1
  | .clear => m.clear.1
  | .next => m.next.1
  | .forLoop => m.forLoop.1

/-- An operation on bank `k` of a module; a bad bank number raises KeyError before anything is
done. -/
def MemoryModule.run (m : MemoryModule) (k : Int) (op : MemOp) : MemoryModule :=
  match m.bank k with
  | .error _ => m
  | .ok b => ⟨m.banks.set k.toNat (op.run b)⟩

end H800
