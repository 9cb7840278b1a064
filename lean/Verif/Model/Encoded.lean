import Verif.Model.CheckText

/-!
The standard output of check-instructions.py, parse.py and list-instructions.py on a stream whose
encoding may lack characters. The stream has the error handler `strict`: `print` raises
UnicodeEncodeError, a ValueError, for a text with a character that the encoding lacks, and no script
catches it. The standard error stream has the handler `backslashreplace` and never does so.

An encoding is given by the characters it has. The parts of one `print` that come before the part with
the character may have been written; they are left out here.
-/

namespace H800

/-- `print` of one line after the other on a stream that has the characters `enc`: what is written, and
how the script ends; `r` is how it ends if all lines can be written. -/
def printIn (enc : Char → Bool) : List Str → Py Unit → Str × Py Unit
  | [], r => ([], r)
  | l :: ls, r =>
    if l.all enc then
      match printIn enc ls r with
      | (o, r') => (l ++ '\n' :: o, r')
    else ([], .error .valueError)

/-- The lines of check-instructions.py (57-130) in the order in which they are printed. -/
def checkLines (out : List (VMsg CheckMsg)) : List Str := out.flatMap (VMsg.text CheckMsg.text)

/-- check-instructions.py 57-130: `main`, on such a stream. -/
def checkIn (enc : Char → Bool) (verbose : Bool) (fs : FileSystem) (fuel : Nat) (opts : CheckOpts)
    (args : List Str) : Str × Py Unit :=
  match checkInstructionsV verbose fs fuel opts args with
  | (out, r) => printIn enc (checkLines out) r

/-- A message of parse.py on the standard output (parse.py 60-61, 69-72, 76-81); those of the symbol
table go to the standard error stream. -/
def ParseMsg.text : ParseMsg → List Str
  | .inl _ => []
  | .inr m => m.text

/-- The lines of parse.py (32-81) on the standard output. -/
def parseLines (out : List (VMsg ParseMsg)) : List Str := out.flatMap (VMsg.text ParseMsg.text)

/-- parse.py 32-81: `main`, on such a stream. -/
def parseIn (enc : Char → Bool) (verbose : Bool) (upper : Str → Str) (fs : FileSystem) (fuel : Nat)
    (debug : Bool) (args : List Str) : Str × Py Unit :=
  match parseV verbose upper fs fuel debug args with
  | (out, r) => printIn enc (parseLines out) r

/-- The lines of a message of list-instructions.py: 47-50 a skipped card, with its details; 59-62 a card
that is listed. -/
def listMsgText : VMsg Str → List Str
  | .starred c => [py "Skipping card with * in column 8:", listLine true c]
  | m => m.text fun l => [l]

/-- list-instructions.py 30-62: `main`, on such a stream. -/
def listIn (enc : Char → Bool) (verbose : Bool) (fs : FileSystem) (fuel : Nat) (details : Bool)
    (args : List Str) : Str × Py Unit :=
  match listInstructionsV verbose fs fuel details args with
  | (out, r) => printIn enc (out.flatMap listMsgText) r

end H800
