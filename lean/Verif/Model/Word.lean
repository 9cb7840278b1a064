import Verif.Model.BitField

/-!
Model of `h800/word.py`. The private copies `_command`, `_a`, `_b`, `_c`, which nothing reads, are
dropped; `emit` (57-60) does nothing.
-/

namespace H800

/-- word.py 37-43: a word is a 48-bit MSB_1, MSB-left bit-field. -/
structure Word where
  data : BitField
  deriving DecidableEq, Repr

namespace Word

/-- word.py 39-45: `Word(data)`. -/
def init (data : Int) : Py Word := do
  if data < 0 ∨ data > 2 ^ 48 - 1 then throw .valueError
  let b ← BitField.init 0 48 3 0
  let b ← b.assign (.slice (some 1) (some 48)) data
  return ⟨b⟩

/-- word.py 47-49 -/
def value (w : Word) : Int := w.data.value

/-- word.py 51-55: the `value` setter. -/
def setValue (w : Word) (v : Int) : Word × Py Unit :=
  if v < 0 ∨ v > 2 ^ 48 - 1 then (w, .error .valueError)
  else
    let (b, r) := w.data.setValue v
    (⟨b⟩, r)

end Word

/-- word.py 69-104: the four fields of an instruction word. -/
inductive IField where
  | command | a | b | c
  deriving DecidableEq, Repr

/-- word.py 70-73 and the slices in 75-104. -/
def IField.key : IField → Key
  | .command => .slice (some 1) (some 12)
  | .a => .slice (some 13) (some 24)
  | .b => .slice (some 25) (some 36)
  | .c => .slice (some 37) (some 48)

namespace InstructionWord

/-- word.py 67-73: `InstructionWord(command, a, b, c)`. -/
def init (command a b c : Int) : Py Word := do
  let w ← Word.init 0
  let d ← w.data.assign IField.command.key command
  let d ← d.assign IField.a.key a
  let d ← d.assign IField.b.key b
  let d ← d.assign IField.c.key c
  return ⟨d⟩

/-- word.py 75-77, 83-85, 91-93, 99-101: the field getters. -/
def get (w : Word) (f : IField) : Py Int := w.data.getitem f.key

/-- word.py 79-81, 87-89, 95-97, 103-104: the field setters. -/
def set (w : Word) (f : IField) (v : Int) : Word × Py Unit :=
  let (b, r) := w.data.setitem f.key v
  (⟨b⟩, r)

end InstructionWord

/-- Client operations on an instruction word: the field setters and the inherited `value` setter. -/
inductive IwOp where
  | field (f : IField) (x : Int)
  | value (v : Int)
  deriving DecidableEq, Repr

/-- One operation; an exception is caught by the client. -/
def IwOp.run (w : Word) : IwOp → Word
  | .field f x => (InstructionWord.set w f x).1
  | .value v => (w.setValue v).1

end H800
