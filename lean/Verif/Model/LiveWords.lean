import Verif.Model.Memory

/-!
The words of a bank that its iterator has handed out (`h800/memory.py` 69-74) are the objects that the
bank itself holds, so what the client does with them happens in the bank.
-/

namespace H800

/-- What a client can do with a bank and with the words that it got from it: use the bank (`MemOp`),
assign to the `value` of a word (word.py 51-55), or use the bit-field in its public attribute `data`
(word.py 41-43). A word is named by its address. -/
inductive LiveOp where
  | bank (op : MemOp)
  | wordValue (a : Nat) (v : Int)
  | wordData (a : Nat) (op : BfOp)
  deriving DecidableEq, Repr

/-- One operation; an exception is caught by the client. The client has a word only after `__next__`
(memory.py 69-74) has returned it, so the operations on other words are none. -/
def LiveOp.run (m : MemoryBank) : LiveOp → MemoryBank
  | .bank op => op.run m
  | .wordValue a v =>
    if a < m.current then { m with words := m.words.modify a fun w => (w.setValue v).1 } else m
  | .wordData a op =>
    if a < m.current then { m with words := m.words.modify a fun w => ⟨(op.run w.data).1⟩ } else m

end H800
