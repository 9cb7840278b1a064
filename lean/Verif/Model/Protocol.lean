import Verif.Model.Iter
import Verif.Model.Sharing
import Verif.Model.Values

/-!
`x in obj` and `reversed(obj)` for the classes of `h800/bitfield.py`, `h800/registers.py` and
`h800/memory.py`. None of them has `__contains__` or `__reversed__`, so Python makes do with `__iter__`,
`__getitem__` and `__len__`. None of them has `__eq__`, so that words, registers, groups and banks are
equal only to themselves. Left out are objects whose own `__eq__` says otherwise.
-/

namespace H800

/-- `x in obj` of an object without `__iter__`, from index `i` on: `obj[i]`, `obj[i + 1]`, ... are
compared until one is equal or IndexError is raised. The result is `none` if it is still running after
`fuel` rounds. -/
def seqContains {α : Type} (same : α → Bool) (get : Int → Py α) : Nat → Int → Option (Py Bool)
  | 0, _ => none
  | fuel + 1, i =>
    match get i with
    | .error .indexError => some (.ok false)
    | .error e => some (.error e)
    | .ok x => if same x then some (.ok true) else seqContains same get fuel (i + 1)

/-- `for x in reversed(obj)` with `n` items to come: `obj[n - 1]`, ..., `obj[0]`: the items delivered, and
how the loop ended (`none`: normally). -/
def revIter {α : Type} (get : Int → Py α) : Nat → List α × Option PyErr
  | 0 => ([], none)
  | n + 1 =>
    match get n with
    | .error .indexError => ([], none)
    | .error e => ([], some e)
    | .ok x => (x :: (revIter get n).1, (revIter get n).2)

/-- `v in bitfield` (bitfield.py 343-364) -/
def BitField.contains (b : BitField) (v : PyVal) (fuel : Nat) : Option (Py Bool) :=
  seqContains v.eqInt (fun i => b.getitem (.idx i)) fuel 0

/-- `reversed(bitfield)` (bitfield.py 343-364, 398-399) -/
def BitField.reversed (b : BitField) : List Int × Option PyErr :=
  revIter (fun i => b.getitem (.idx i)) b.width

/-- `v in register` (registers.py 117-121) -/
def Register.contains (r : Register) (v : PyVal) (fuel : Nat) : Option (Py Bool) :=
  seqContains v.eqInt (fun i => r.getitem (.idx i)) fuel 0

/-- `reversed(register)` (registers.py 117-121, 129-130) -/
def Register.reversed (r : Register) : List Int × Option PyErr :=
  revIter (fun i => r.getitem (.idx i)) r.len

/-- What is looked for in a memory bank: the word object at an address of the bank, or a number or any
other object. -/
inductive Sought where
  | word (a : Nat)
  | value (v : PyVal)
  deriving DecidableEq, Repr

/-- `word == x` for the word at address `a`: `Word` has no `__eq__`. -/
def Sought.isWord : Sought → Nat → Bool
  | .word b, a => a = b
  | .value _, _ => false

namespace MemoryBank

/-- memory.py 66-74: `x in bank`, at most `fuel` calls of `next`. -/
def containsLoop (x : Sought) : Nat → MemoryBank → MemoryBank × Bool
  | 0, m => (m, false)
  | fuel + 1, m =>
    match m.next with
    | (m', none) => (m', false)
    | (m', some a) => if x.isWord a then (m', true) else containsLoop x fuel m'

/-- memory.py 66-74: `x in bank`; `len + 1` calls of `next` always reach StopIteration. -/
def contains (m : MemoryBank) (x : Sought) : MemoryBank × Bool := containsLoop x (m.len + 1) m

/-- memory.py 47-54, 63-64: `reversed(bank)` -/
def reversed (m : MemoryBank) : List Int × Option PyErr := revIter m.get m.len

end MemoryBank

namespace MemoryModule

/-- memory.py 98-105, 125-132: `x in module`, for the bank object with number `x` of this module, or
another object (`none`). -/
def contains (m : MemoryModule) (x : Option Nat) (fuel : Nat) : Option (Py Bool) :=
  seqContains (fun (i : Int) => x = some i.toNat) (fun i => do
    let _ ← m.bank i
    return i) fuel 0

/-- memory.py 98-108, 125-135: `reversed(module)` -/
def reversed (m : MemoryModule) : List MemoryBank × Option PyErr := revIter m.bank m.len

end MemoryModule

namespace RegisterGroup

/-- registers.py 177-185: `x in group`, for a register object `x` of the store or another object
(`none`), at most `fuel` calls of `next`. -/
def containsLoop (x : Option Nat) : Nat → RegisterGroup → RegisterGroup × Py Bool
  | 0, g => (g, .ok false)
  | fuel + 1, g =>
    match g.next with
    | (g', .error e) => (g', .error e)
    | (g', .ok none) => (g', .ok false)
    | (g', .ok (some r)) => if x = some r then (g', .ok true) else containsLoop x fuel g'

/-- registers.py 177-185: `x in group` -/
def contains (g : RegisterGroup) (x : Option Nat) : RegisterGroup × Py Bool :=
  containsLoop x (REGISTERS.length + 1) g

/-- registers.py 154-164, 174-175: `reversed(group)` -/
def reversed (g : RegisterGroup) : List Nat × Option PyErr :=
  revIter (fun i => g.getitem (.num i)) g.len

end RegisterGroup

namespace Registers

/-- registers.py 235-243: `x in registers`, for a group object `x` of the store or another object
(`none`), at most `fuel` calls of `next`. -/
def containsLoop (x : Option Nat) : Nat → Registers → Registers × Py Bool
  | 0, s => (s, .ok false)
  | fuel + 1, s =>
    match s.next with
    | (s', .error e) => (s', .error e)
    | (s', .ok none) => (s', .ok false)
    | (s', .ok (some g)) => if x = some g then (s', .ok true) else containsLoop x fuel s'

/-- registers.py 235-243: `x in registers` -/
def contains (s : Registers) (x : Option Nat) : Registers × Py Bool :=
  containsLoop x (NUM_GROUPS + 1) s

/-- registers.py 214-222, 232-233: `reversed(registers)` -/
def reversed (s : Registers) : List Nat × Option PyErr :=
  revIter (fun i => s.getitem (.num i)) s.len

end Registers

end H800
