import Verif.Model.Tools

/-!
The text of what list-symbols.py prints.
-/

namespace H800

/-- list-symbols.py 39-51, 54: the text of a line, without its newline. `symdata["card"]` is printed
with `PunchCard.__str__` (punchcard.py 120-121). -/
def ListLine.text : ListLine → Str
  | .sym s => s
  | .seg s => py "  Segment: " ++ s
  | .sub s => py "    Subsegment: " ++ s
  | .entry kind tagtype file line card =>
    py "        " ++ padRight 9 ('<' :: kind ++ ['>']) ++ ' ' :: padLeft ' ' 1 tagtype ++
      ' ' :: padRight 38 (file ++ ':' :: pyStr line) ++ py "      " ++ card
  | .errors n => pyStr n ++ py " errors found"

/-- list-symbols.py 54: the number of errors goes to the standard error stream, all else to the
standard output. -/
def ListLine.onStdout : ListLine → Bool
  | .errors _ => false
  | _ => true

/-- list-symbols.py 38-51: the standard output. -/
def listingText (l : List ListLine) : Str :=
  (l.filter ListLine.onStdout).flatMap fun x => x.text ++ ['\n']

end H800
