import Verif.Model.Memory
import Verif.Model.Registers

/-!
The cases of `h800/word_test.py`, `h800/registers_test.py` and `h800/memory_test.py`, as checks that
the model agrees with what the project's own tests expect of the code. These are tests, not proofs;
no property rests on them. Loops over `range(2 ** 16, 16)` in those files are empty; the random
values are instances of C24.
-/

namespace H800.Tests

/-! word_test.py -/

/-- The value of a new word. -/
def word (v : Int) : Py Int := do return (← Word.init v).value

/-- The value of a new instruction word. -/
def iword (x a b c : Int) : Py Int := do return (← InstructionWord.init x a b c).value

/-- `test_word_simple_defaults`, `test_word_invalid_args` -/
example : word 0 = .ok 0 ∧ word 4095 = .ok 4095 ∧ word 281406274007040 = .ok 281406274007040 ∧
    word (2 ^ 48 - 1) = .ok (2 ^ 48 - 1) ∧ word (-1) = .error .valueError ∧
    word (2 ^ 48) = .error .valueError := by decide +kernel

/-- `test_inst_simple_defaults` -/
example : iword 0 0 0 0 = .ok 0 ∧ iword 0 4095 0 4095 = .ok 68702703615 ∧
    iword 4095 0 4095 0 = .ok 281406274007040 ∧ iword 4095 4095 4095 4095 = .ok (2 ^ 48 - 1) := by
  decide +kernel

/-- Set a field of a zero word, read the four fields and the value, set the value to zero. -/
def fieldTest (f : IField) : Py (List Int × Int × Int) := do
  let w ← InstructionWord.init 0 0 0 0
  let (w, r) := InstructionWord.set w f 4095
  r
  let l ← [IField.command, .a, .b, .c].mapM (InstructionWord.get w)
  let (w', r) := w.setValue 0
  r
  return (l, w.value, w'.value)

/-- `test_inst_field_set_get` -/
example : fieldTest .command = .ok ([4095, 0, 0, 0], 281406257233920, 0) ∧
    fieldTest .a = .ok ([0, 4095, 0, 0], 68702699520, 0) ∧
    fieldTest .b = .ok ([0, 0, 4095, 0], 16773120, 0) ∧
    fieldTest .c = .ok ([0, 0, 0, 4095], 4095, 0) := by decide +kernel

/-! registers_test.py -/

/-- The value of a new register. -/
def register (v width : Int) : Py Int := do return (← Register.init v none width).value

/-- `test_register_16bit_simple_defaults`, `test_register_16bit_invalid_args` and the same for 24
bits -/
example : register 0 16 = .ok 0 ∧ register 4095 16 = .ok 4095 ∧ register 65535 16 = .ok 65535 ∧
    register (-1) 16 = .error .valueError ∧ register (2 ^ 16) 16 = .error .valueError ∧
    register 0 24 = .ok 0 ∧ register 4095 24 = .ok 4095 ∧ register 65535 24 = .ok 65535 ∧
    register (2 ^ 24 - 1) 24 = .ok (2 ^ 24 - 1) ∧ register (-1) 24 = .error .valueError ∧
    register (2 ^ 24) 24 = .error .valueError := by decide +kernel

/-- `register[key] = x` followed by `register.value`. -/
def put (r : Register) (k : Key) (x : Int) : Py (Register × Int) :=
  let (r', e) := r.setitem k x
  do e; return (r', r'.value)

/-- The loop of the slice tests over the bits of a zero register. -/
def bitLoop (r : Register) (w : Nat) : Bool :=
  (List.range w).all fun i => decide ((do
    let (r, v) ← put r (.idx (i + 1)) 1
    let x ← r.getitem (.idx (i + 1))
    let (r, v') ← put r (.idx (i + 1)) 0
    let x' ← r.getitem (.idx (i + 1))
    return (v, x, v', x') : Py _) = .ok (2 ^ (w - i - 1), 1, 0, 0))

/-- The slice tests for a width. -/
def sliceTest (w : Nat) : Py (Int × Int × Int × Int × Bool) := do
  let r ← Register.init 0o777 none w
  let v := r.value
  let (r, v1) ← put r (.idx 1) 1
  let (r, v2) ← put r (.idx 1) 0
  let (r, _) ← put r (.slice (some 1) (some w)) 0
  let x ← r.getitem (.slice (some 1) (some w))
  return (v, v1, v2, x, bitLoop r w)

/-- `test_register_16bit_slices`, `test_register_24bit_slices` -/
example : sliceTest 16 = .ok (0o777, 0o100777, 0o777, 0, true) ∧
    sliceTest 24 = .ok (0o777, 2 ^ 23 + 0o777, 0o777, 0, true) := by decide +kernel

/-- The value of `group[i]`, after writing `v` to it if given. -/
def groupItem (s : List Register × RegisterGroup) (k : GKey) (v : Option Int) : Py Int := do
  let n ← s.2.getitem k
  match s.1[n]? with
  | none => throw .attributeError
  | some r =>
    match v with
    | none => return r.value
    | some v =>
      let (r', e) := r.setValue v
      e
      return r'.value

/-- `test_registergroup_*_simple_defaults`, `test_registergroup_*_invalid_args` for a width. -/
def groupTest (w : Nat) : Bool :=
  match RegisterGroup.init [] w with
  | .error _ => false
  | .ok s =>
    ((List.range 32).all fun i => groupItem s (.num i) none = .ok 0) &&
    ((List.range 32).all fun i => groupItem s (.num i) (some (2 ^ w - 1)) = .ok (2 ^ w - 1)) &&
    decide (groupItem s (.num 32) (some 0) = .error .valueError) &&
    decide (groupItem s (.num 0) (some (-1)) = .error .valueError) &&
    decide (groupItem s (.num 0) (some (2 ^ w)) = .error .valueError)

/-- `test_registergroup_invalid_args` and the tests of one group -/
example : RegisterGroup.init [] 17 = .error .valueError ∧
    RegisterGroup.init [] 25 = .error .valueError ∧ groupTest 16 = true ∧ groupTest 24 = true := by
  decide +kernel

/-- `for group in registers: for register in group: ...`: the register references visited. -/
def nested : Nat → Registers → Registers × Py (List Nat)
  | 0, s => (s, .ok [])
  | fuel + 1, s =>
    match s.next with
    | (s', .error e) => (s', .error e)
    | (s', .ok none) => (s', .ok [])
    | (s', .ok (some g)) =>
      match s'.groups[g]? with
      | none => (s', .error .attributeError)
      | some grp =>
        match grp.forLoop with
        | (grp', .error e) => ({ s' with groups := s'.groups.set g grp' }, .error e)
        | (grp', .ok rs) =>
          match nested fuel { s' with groups := s'.groups.set g grp' } with
          | (s'', .ok l) => (s'', .ok (rs ++ l))
          | (s'', .error e) => (s'', .error e)

/-- The first pair of loops visits all 256 registers, the second none: this is why
`test_registers_24bit_simple` passes although it expects bit 1 of a 24-bit register to be `2 ** 15`
(see C26). -/
def loops (w : Nat) : Py (Nat × Bool × Nat) := do
  let s ← Registers.init w
  let (s, r) := nested 9 s
  let l ← r
  let (_, r) := nested 9 s
  let l' ← r
  return (l.length, l.all fun i => (s.heap[i]?).any fun x => x.value = 0, l'.length)

/-- `test_registers_16bit_simple`, `test_registers_24bit_simple` -/
example : loops 16 = .ok (256, true, 0) ∧ loops 24 = .ok (256, true, 0) := by decide +kernel

/-- `test_registers_16bit_clear`, `test_registers_24bit_clear`: after the loops `clear` succeeds. -/
example : ((Registers.init 16).toOption.any fun s =>
    decide ((nested 9 s).1.clear.2 = .ok ())) = true := by decide +kernel

/-! memory_test.py; the loops over all addresses are instances of C29-C35 -/

/-- `test_memorymodule_simple_defaults`, `test_expansionmemorymodule_simple_defaults` -/
example : (do (← MemoryModule.init false).size false : Py Nat) = .ok 8192 ∧
    (do (← MemoryModule.init true).size true : Py Nat) = .ok 16384 := by decide +kernel

end H800.Tests
