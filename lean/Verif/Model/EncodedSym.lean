import Verif.Model.Encoded
import Verif.Model.Repr

/-!
The standard output of list-symbols.py, find-symbols.py and check-symbols.py on a stream whose encoding
may lack characters, as in Model/Encoded.
-/

namespace H800

/-- The lines of a message of the symbol tools on the standard output (check-symbols.py 56,
find-symbols.py 75, list-symbols.py 39-51). -/
def symOutText (printable : Char → Bool) (addr : CodeCard → Nat) : VMsg SymMsg → List Str :=
  VMsg.text fun m => if m.onStdout then m.text printable addr else []

/-- list-symbols.py 25-54, find-symbols.py 54-75, check-symbols.py 30-61: a run, of which `run` is what is
printed and how it ends, on such a stream. -/
def symIn (enc printable : Char → Bool) (addr : CodeCard → Nat) (run : List (VMsg SymMsg) × Py Unit) :
    Str × Py Unit :=
  printIn enc (run.1.flatMap (symOutText printable addr)) run.2

end H800
