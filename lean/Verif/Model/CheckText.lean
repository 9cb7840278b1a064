import Verif.Model.Options
import Verif.Model.Percent

/-!
The text that check-instructions.py and parse.py write on the standard output.
-/

namespace H800

/-- check-instructions.py 79-80, 84-85 and parse.py 60-61, 65-66:
`print(card.filename, card.linenum, card.line.replace('\n', ''))`. -/
def cardText (c : CodeCard) : Str :=
  c.file.getD (py "None") ++ ' ' :: pyStr c.line ++ ' ' :: remove c.text '\n'

/-- The lines of a message of check-instructions.py or parse.py, without their newlines. -/
def CheckMsg.text : CheckMsg → List Str
  | .card c => [cardText c]
  | .invalid c =>
    [py "*** ERROR: Invalid instruction \"" ++ c.instruction.getD (py "None") ++ py "\":",
     py "File " ++ c.file.getD (py "None") ++ py ", line " ++ pyStr c.line ++ py ": " ++ c.text]
  | .lines n => [[], py "Source lines: " ++ pyStr n]
  | .total n => [[], py "Instruction Frequencies:", totalText n]
  | .freq i n t => [freqText i n t]
  | .unusedHeader => [[], py "Unused Instructions:"]
  | .unused i => [i]
  | .errors n => [if n = 1 then py "1 error encountered." else pyStr n ++ py " errors encountered."]

/-- The lines of a message that may be printed because of `--verbose` (punchcard.py 192, 197-198,
check-instructions.py 83-85, parse.py 64-66, listing.py 49); `body` are those of any other. -/
def VMsg.text {α : Type} (body : α → List Str) : VMsg α → List Str
  | .reading f => [py "Reading " ++ f ++ py "..."]
  | .meta_ f n => [py "Skipping meta-comment, file " ++ f ++ py ", line " ++ pyStr n]
  | .starred c => [py "Skipping card with * in column 8:", cardText c]
  | .wrote f => [py "Wrote listing file to " ++ f]
  | .msg m => body m

/-- Lines as `print` writes them. -/
def printed (ls : List Str) : Str := ls.flatMap fun l => l ++ ['\n']

/-- The standard output of check-instructions.py. -/
def checkStdout (out : List (VMsg CheckMsg)) : Str := printed (out.flatMap (VMsg.text CheckMsg.text))

/-- The standard output of parse.py; the messages of the symbol table go to the standard error
stream. -/
def parseStdout (out : List (VMsg ParseMsg)) : Str :=
  printed (out.flatMap (VMsg.text fun
    | .inl _ => []
    | .inr m => m.text))

end H800
