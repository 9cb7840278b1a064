import Verif.Model.BitField

/-!
Model of `h800/registers.py`.

Register and register-group objects are mutable and can be shared (`group["X0"] = r`,
`registers[1] = registers[0]`), so they live in a store and are referred to by their position in it;
object identity is equality of references. Nothing is ever removed from the store.
-/

namespace H800

/-- registers.py 7-40 -/
def REGISTERS : Dict Str Int := [
  (py "AU1", 0), (py "AU2", 1), (py "SC", 2), (py "CSC", 3), (py "SH", 4), (py "CSH", 5),
  (py "UTR", 6), (py "MXR", 7), (py "X0", 8), (py "X1", 9), (py "X2", 10), (py "X3", 11),
  (py "X4", 12), (py "X5", 13), (py "X6", 14), (py "X7", 15), (py "R0", 16), (py "R1", 17),
  (py "R2", 18), (py "R3", 19), (py "R4", 20), (py "R5", 21), (py "R6", 22), (py "R7", 23),
  (py "S0", 24), (py "S1", 25), (py "S2", 26), (py "S3", 27), (py "S4", 28), (py "S5", 29),
  (py "S6", 30), (py "S7", 31)]

/-- registers.py 42-47 -/
def ALIASES : Dict Str Int := [(py "RAC", 28), (py "DRAC", 29), (py "WAC", 30), (py "DWAC", 31)]

/-- registers.py 49 -/
def REGISTER_NAMES : List Str := REGISTERS.map Prod.fst ++ ALIASES.map Prod.fst

/-- registers.py 54-56, 62-67: the first name with this number. -/
def nameOf (number : Int) : Dict Str Int → Option Str
  | [] => none
  | (name, n) :: rest => if n = number then some name else nameOf number rest

/-- registers.py 52-57 -/
def registerName (number : Int) : Py Str :=
  match nameOf number REGISTERS with
  | some name => .ok name
  | none => .error .valueError

/-- registers.py 60-68 -/
def registerAlias (number : Int) : Py Str :=
  match nameOf number ALIASES with
  | some name => .ok name
  | none => match nameOf number REGISTERS with
    | some name => .ok name
    | none => .error .valueError

/-- registers.py 71-77 -/
def registerNumber (name : Str) : Py Int :=
  match dget REGISTERS name with
  | some n => .ok n
  | none => match dget ALIASES name with
    | some n => .ok n
    | none => .error .valueError

/-- registers.py 91-96: the attributes of a register. -/
structure Register where
  data : BitField
  name : Option Str
  width : Nat
  deriving DecidableEq, Repr

namespace Register

/-- registers.py 83-96. For a negative width `2 ** width - 1` is a negative float, so one of the two
comparisons of line 84 holds and ValueError is raised. `None` and `""` are both false in line 86. -/
def init (data : Int) (name : Option Str) (width : Int) : Py Register :=
  if width < 0 then .error .valueError
  else if data < 0 ∨ data > 2 ^ width.toNat - 1 then .error .valueError
  else if name.getD [] ≠ [] ∧ name.getD [] ∉ REGISTER_NAMES then .error .valueError
  else if width ≠ 16 ∧ width ≠ 24 then .error .valueError
  else do
    let b ← BitField.init 0 width.toNat 3 0
    let b ← b.assign (.slice (some 1) (some width)) data
    return { data := b, name := name, width := width.toNat }

/-- registers.py 98-100 -/
def value (r : Register) : Int := r.data.value

/-- registers.py 102-107: the `value` setter. -/
def setValue (r : Register) (v : Int) : Register × Py Unit :=
  if v < 0 ∨ v > 2 ^ r.width - 1 then (r, .error .valueError)
  else
    let (b, x) := r.data.setitem (.slice (some 1) (some r.width)) v
    ({ r with data := b }, x)

/-- registers.py 117-121 -/
def getitem (r : Register) (k : Key) : Py Int := r.data.getitem k

/-- registers.py 123-127 -/
def setitem (r : Register) (k : Key) (v : Int) : Register × Py Unit :=
  let (b, x) := r.data.setitem k v
  ({ r with data := b }, x)

/-- registers.py 129-130 -/
def len (r : Register) : Nat := r.width

/-- registers.py 132-133: `"0o%06o" % value`. -/
def repr (r : Register) : Str :=
  if r.value < 0 then py "0o" ++ ('-' :: padLeft '0' 5 (numeral 8 r.value.natAbs))
  else py "0o" ++ padLeft '0' 6 (numeral 8 r.value.natAbs)

/-- registers.py 135-136 -/
def clear (r : Register) : Register := { r with data := (r.data.clear none).1 }

end Register

/-- A subscript of a register group: a string, an integer or a slice (other keys are in
`Verif/Model/Keys.lean`). -/
inductive GKey where
  | name (s : Str)
  | num (n : Int)
  | slice
  deriving DecidableEq, Repr

/-- registers.py 142-148: the attributes of a group; `regs` maps int or string keys to registers. -/
structure RegisterGroup where
  width : Nat
  regs : Dict GKey Nat
  current : Nat
  deriving DecidableEq, Repr

namespace RegisterGroup

/-- registers.py 145-147: the loop of the constructor; each new register is added to the store. -/
def initLoop (width : Int) : Dict Str Int → List Register → Dict GKey Nat →
    Py (List Register × Dict GKey Nat)
  | [], heap, d => .ok (heap, d)
  | (regname, n) :: rest, heap, d => do
    let r ← Register.init 0 (some regname) width
    initLoop width rest (heap ++ [r]) (dset d (.num n) heap.length)

/-- registers.py 142-148: `RegisterGroup(width)`. -/
def init (heap : List Register) (width : Int) : Py (List Register × RegisterGroup) := do
  let (heap', d) ← initLoop width REGISTERS heap []
  return (heap', { width := width.toNat, regs := d, current := 0 })

/-- registers.py 154-164: `group[key]`. -/
def getitem (g : RegisterGroup) : GKey → Py Nat
  | .slice => .error .valueError
  | .name s =>
    match dget REGISTERS s with
    | none => .error .valueError
    | some n => dgetE g.regs (.num n)
  | .num n =>
    if n < 0 ∨ n ≥ REGISTERS.length then .error .valueError
    else dgetE g.regs (.num n)

/-- registers.py 166-172: `group[key] = value`. An integer key is looked up in `REGISTERS`, whose
keys are strings. -/
def setitem (g : RegisterGroup) (k : GKey) (r : Nat) : RegisterGroup × Py Unit :=
  match k with
  | .slice => (g, .error .valueError)
  | .name s => ({ g with regs := dset g.regs (.name s) r }, .ok ())
  | .num _ => (g, .error .keyError)

/-- registers.py 174-175 -/
def len (g : RegisterGroup) : Nat := g.regs.length

/-- registers.py 180-185: `next(group)`; `none` is StopIteration. -/
def next (g : RegisterGroup) : RegisterGroup × Py (Option Nat) :=
  if g.current ≥ REGISTERS.length then (g, .ok none)
  else
    let g' := { g with current := g.current + 1 }
    match dgetE g'.regs (.num g.current) with
    | .ok r => (g', .ok (some r))
    | .error e => (g', .error e)

/-- A `for register in group` loop with at most `fuel` calls of `next`: the registers visited. -/
def loop : Nat → RegisterGroup → RegisterGroup × Py (List Nat)
  | 0, g => (g, .ok [])
  | fuel + 1, g =>
    match g.next with
    | (g', .error e) => (g', .error e)
    | (g', .ok none) => (g', .ok [])
    | (g', .ok (some r)) =>
      match loop fuel g' with
      | (g'', .ok rs) => (g'', .ok (r :: rs))
      | (g'', .error e) => (g'', .error e)

/-- registers.py 177-185: a complete `for register in group` loop: `__iter__` returns the group
itself, the cursor is not reset. 33 calls of `next` always reach StopIteration. -/
def forLoop (g : RegisterGroup) : RegisterGroup × Py (List Nat) := loop (REGISTERS.length + 1) g

/-- Apply a mutator to one object of the store. -/
def upd {α : Type} (heap : List α) (r : Nat) (f : α → α) : List α :=
  match heap[r]? with
  | some x => heap.set r (f x)
  | none => heap

/-- registers.py 193-195: `clear` runs a `for register in self` loop. -/
def clear (heap : List Register) (g : RegisterGroup) : List Register × RegisterGroup × Py Unit :=
  match g.forLoop with
  | (g', .ok rs) => (rs.foldl (fun h r => upd h r Register.clear) heap, g', .ok ())
  | (g', .error e) => (heap, g', .error e)

end RegisterGroup

/-- registers.py 203-208: a register file together with the store of all register and group objects.
`slots` is `_registers`, mapping group numbers to groups. -/
structure Registers where
  heap : List Register
  groups : List RegisterGroup
  slots : Dict Int Nat
  current : Nat
  deriving DecidableEq, Repr

/-- A subscript of a register file: an integer, a slice, or something else (no tuple; see
`Verif/Model/Keys.lean`). -/
inductive FKey where
  | num (n : Int)
  | slice
  | other
  deriving DecidableEq, Repr

namespace Registers

/-- registers.py 201 -/
def NUM_GROUPS : Nat := 8

/-- registers.py 206-207: the loop of the constructor. -/
def initLoop (width : Int) : List Nat → Registers → Py Registers
  | [], s => .ok s
  | k :: ks, s => do
    let (heap, g) ← RegisterGroup.init s.heap width
    initLoop width ks { s with heap := heap, groups := s.groups ++ [g],
                               slots := dset s.slots k s.groups.length }

/-- registers.py 203-208: `Registers(width)`. -/
def init (width : Int) : Py Registers :=
  initLoop width (List.range NUM_GROUPS) { heap := [], groups := [], slots := [], current := 0 }

/-- registers.py 214-222: `registers[key]`. -/
def getitem (s : Registers) : FKey → Py Nat
  | .slice => .error .valueError
  | .other => .error .valueError
  | .num k => if k < 0 ∨ k ≥ NUM_GROUPS then .error .valueError else dgetE s.slots k

/-- registers.py 224-230: `registers[key] = group`; any integer key is accepted. -/
def setitem (s : Registers) (k : FKey) (g : Nat) : Registers × Py Unit :=
  match k with
  | .slice => (s, .error .valueError)
  | .other => (s, .error .valueError)
  | .num k => ({ s with slots := dset s.slots k g }, .ok ())

/-- registers.py 232-233 -/
def len (s : Registers) : Nat := s.slots.length

/-- registers.py 238-243: `next(registers)`. -/
def next (s : Registers) : Registers × Py (Option Nat) :=
  if s.current ≥ NUM_GROUPS then (s, .ok none)
  else
    let s' := { s with current := s.current + 1 }
    match dgetE s'.slots (s.current : Int) with
    | .ok g => (s', .ok (some g))
    | .error e => (s', .error e)

/-- `registers[k].clear()` for the group with reference `g`. -/
def clearGroupRef (s : Registers) (g : Nat) : Registers × Py Unit :=
  match s.groups[g]? with
  | none => (s, .error .attributeError)
  | some grp =>
    match RegisterGroup.clear s.heap grp with
    | (heap, grp', r) => ({ s with heap := heap, groups := s.groups.set g grp' }, r)

/-- registers.py 251-253: the loop `for group in self: group.clear()`, at most `fuel` rounds. -/
def clearLoop : Nat → Registers → Registers × Py Unit
  | 0, s => (s, .ok ())
  | fuel + 1, s =>
    match s.next with
    | (s', .error e) => (s', .error e)
    | (s', .ok none) => (s', .ok ())
    | (s', .ok (some g)) =>
      match s'.clearGroupRef g with
      | (s'', .ok _) => clearLoop fuel s''
      | (s'', .error e) => (s'', .error e)

/-- registers.py 251-253. Nine calls of `next` always reach StopIteration. -/
def clear (s : Registers) : Registers × Py Unit := clearLoop (NUM_GROUPS + 1) s

/-- The reference of `registers[g][k]`. -/
def regRef (s : Registers) (g : FKey) (k : GKey) : Py Nat := do
  let gr ← s.getitem g
  match s.groups[gr]? with
  | none => throw .attributeError
  | some grp => grp.getitem k

/-- The register object `registers[g][k]`. -/
def reg (s : Registers) (g : FKey) (k : GKey) : Py Register := do
  let r ← s.regRef g k
  match s.heap[r]? with
  | none => throw .attributeError
  | some x => return x

end Registers

/-- Client operations on a register file. -/
inductive RegOp where
  | write (g : FKey) (k : GKey) (v : Int)        -- registers[g][k].value = v
  | bit (g : FKey) (k : GKey) (i x : Int)        -- registers[g][k][i] = x
  | slice (g : FKey) (k : GKey) (s e x : Int)    -- registers[g][k][s:e] = x
  | clearReg (g : FKey) (k : GKey)               -- registers[g][k].clear()
  | next (g : FKey)                              -- next(registers[g])
  | clearGroup (g : FKey)                        -- registers[g].clear()
  | nextFile                                     -- next(registers)
  | clearFile                                    -- registers.clear()
  deriving DecidableEq, Repr

namespace RegOp

/-- Apply a mutator to `registers[g][k]`, if there is such a register. -/
def onReg (s : Registers) (g : FKey) (k : GKey) (f : Register → Register) : Registers :=
  match s.regRef g k with
  | .ok r => { s with heap := RegisterGroup.upd s.heap r f }
  | .error _ => s

/-- One operation; an exception is caught by the client. A complete `for` loop is a sequence of
`next` operations. -/
def run (s : Registers) : RegOp → Registers
  | .write g k v => onReg s g k fun r => (r.setValue v).1
  | .bit g k i x => onReg s g k fun r => (r.setitem (.idx i) x).1
  | .slice g k a b x => onReg s g k fun r => (r.setitem (.slice (some a) (some b)) x).1
  | .clearReg g k => onReg s g k Register.clear
  | .next g =>
    match s.getitem g with
    | .error _ => s
    | .ok gr => { s with groups := RegisterGroup.upd s.groups gr fun x => x.next.1 }
  | .clearGroup g =>
    match s.getitem g with
    | .error _ => s
    | .ok gr => (s.clearGroupRef gr).1
  | .nextFile => s.next.1
  | .clearFile => s.clear.1

end RegOp

/-- Client operations on a single group. -/
inductive GroupOp where
  | next
  | forLoop
  | clear
  | setitem (k : GKey) (r : Nat)
  deriving DecidableEq, Repr

/-- The effect on the group object (`clear` also changes registers, in the store). -/
def GroupOp.run (g : RegisterGroup) : GroupOp → RegisterGroup
  | .next => g.next.1
  | .forLoop => g.forLoop.1
  | .clear => (RegisterGroup.clear [] g).2.1
  | .setitem k r => (g.setitem k r).1

end H800
