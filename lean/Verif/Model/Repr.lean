import Verif.Model.CheckText
import Verif.Model.ListText

/-!
The text that the symbol tools print: check-symbols.py, find-symbols.py, list-symbols.py, and parse.py
while it builds the symbol table. The definitions are printed as Python shows dicts and lists, that is
with `repr` for their parts.

`printable` stands for `str.isprintable` of a character beyond ASCII, and `addr` for the address of the
object of a card; both are parameters. Simplification: cards with the same contents have the same
address.
-/

namespace H800

/-- A digit of a hexadecimal numeral. -/
def hexChar (d : Nat) : Char := if d < 10 then digitChar d else Char.ofNat ('a'.toNat + (d - 10))

/-- The last `w` hexadecimal digits of a number. -/
def hexFixed : Nat → Nat → Str
  | 0, _ => []
  | w + 1, n => hexFixed w (n / 16) ++ [hexChar (n % 16)]

/-- `repr` of a string: one character, between quotes `quote`. -/
def reprChar (printable : Char → Bool) (quote c : Char) : Str :=
  if c = quote ∨ c = '\\' then ['\\', c]
  else if c = '\t' then ['\\', 't']
  else if c = '\n' then ['\\', 'n']
  else if c = '\r' then ['\\', 'r']
  else if c.toNat < 32 ∨ c.toNat = 127 then '\\' :: 'x' :: hexFixed 2 c.toNat
  else if c.toNat < 127 then [c]
  else if printable c then [c]
  else if c.toNat < 256 then '\\' :: 'x' :: hexFixed 2 c.toNat
  else if c.toNat < 65536 then '\\' :: 'u' :: hexFixed 4 c.toNat
  else '\\' :: 'U' :: hexFixed 8 c.toNat

/-- `repr` of a string: single quotes unless there are single and no double quotes in it. -/
def reprStr (printable : Char → Bool) (s : Str) : Str :=
  let quote := if s.contains '\'' && !s.contains '"' then '"' else '\''
  quote :: s.flatMap (reprChar printable quote) ++ [quote]

/-- `repr` of None or a string. -/
def reprOpt (printable : Char → Bool) : Option Str → Str
  | none => py "None"
  | some s => reprStr printable s

/-- Texts joined by a separator. -/
def joinText (sep : Str) : List Str → Str
  | [] => []
  | [x] => x
  | x :: y :: l => x ++ sep ++ joinText sep (y :: l)

/-- `repr` of a list of strings. -/
def reprList (printable : Char → Bool) (l : List Str) : Str :=
  '[' :: joinText (py ", ") (l.map (reprStr printable)) ++ [']']

/-- `repr` of a dict; `value` is `repr` of its values. -/
def reprDict {ν : Type} (printable : Char → Bool) (value : ν → Str) (d : Dict Str ν) : Str :=
  '{' :: joinText (py ", ") (d.map fun p => reprStr printable p.1 ++ py ": " ++ value p.2) ++ ['}']

/-- `repr` of a card: the class `PunchCard` has `__str__` (punchcard.py 120-121) but no `__repr__`, so
that it is that of `object`. -/
def reprCard (addr : CodeCard → Nat) (c : CodeCard) : Str :=
  py "<h800.arguscard.Card object at 0x" ++ (digits 16 (addr c)).map hexChar ++ [('>')]

/-- symbol_table.py 197-203: a definition as it is printed. -/
def reprDef (printable : Char → Bool) (addr : CodeCard → Nat) (file : Option Str) (line : Int)
    (lognum tagtype : Option Str) (card : CodeCard) : Str :=
  py "{'file': " ++ reprOpt printable file ++ py ", 'line': " ++ pyStr line ++ py ", 'lognum': " ++
    reprOpt printable lognum ++ py ", 'tagtype': " ++ reprOpt printable tagtype ++ py ", 'card': " ++
    reprCard addr card ++ [('}')]

/-- The same for an entry of the table. -/
def reprEntry (printable : Char → Bool) (addr : CodeCard → Nat) (e : SymEntry) : Str :=
  reprDef printable addr e.file e.line e.lognum (some e.tagtype) e.card

/-- symbol_table.py 206, 216-217, 224-225, 231-232, 256, 292-293: what follows the label. -/
def SymErr.says : SymErr → Str
  | .case => py " is ill-formed (case)!"
  | .commas => py " is illegal, too many commas!"
  | .tagPrefix => py " is ill-formed (tag prefix)!"
  | .unsupported => py " has unsupported tag prefix!"
  | .noOperation => py " has no operation!"
  | .multiple => py " is multiply-defined!"

/-- symbol_table.py 206-259, 292-298: the lines of an error, without their newlines. -/
def Diag.text (printable : Char → Bool) (addr : CodeCard → Nat) (d : Diag) : List Str :=
  let first := py "*** ERROR: Symbol " ++ d.label ++ d.err.says
  let current := py "Current definition: " ++
    reprDef printable addr d.file d.line d.lognum d.tagtype d.card
  match d.err with
  | .multiple =>
    [first, py "Previous definitions: " ++ reprDict printable (reprEntry printable addr) d.prev,
     current, py "command: " ++ d.command.getD (py "None")]
  | _ => [first, current]

/-- find-symbols.py 75: the text of what has been found. -/
def Found.text (printable : Char → Bool) (addr : CodeCard → Nat) : Found → Str
  | .nothing => py "None"
  | .names l => reprList printable l
  | .defs d =>
    reprDict printable (reprDict printable (reprDict printable (reprEntry printable addr))) d

/-- The lines of a message of the symbol tools, without their newlines. -/
def SymMsg.text (printable : Char → Bool) (addr : CodeCard → Nat) : SymMsg → List Str
  | .diag d => d.text printable addr
  | .fileErrs f n => [f ++ py ": " ++ pyStr n ++ py " errors encountered building symbol table."]
  | .complexOnly s =>
    [py "ERROR: symbol \"" ++ s ++ py "\" has a complex assignment, but no simple assignment!"]
  | .undefinedHeader => [[], py "Undefined symbols:"]
  | .noMatches s => [py "  " ++ s ++ py " - No matches!"]
  | .matches_ s l => [py "  " ++ s ++ py " - Possible matches: " ++ joinText (py " ") l]
  | .checkErrs n => [pyStr n ++ py " errors checking symbol table."]
  | .total n => [py "Total: " ++ pyStr n ++ py " errors encountered."]
  | .undefined s => [py "ERROR: Undefined symbol \"" ++ s ++ py "\"!"]
  | .found f => [f.text printable addr]
  | .listing l => [l.text]

/-- check-symbols.py 56, find-symbols.py 75, list-symbols.py 39-51: these go to the standard output, all
others to the standard error stream. -/
def SymMsg.onStdout : SymMsg → Bool
  | .matches_ _ _ => true
  | .found _ => true
  | .listing l => l.onStdout
  | _ => false

/-- The standard output of a symbol tool. -/
def symStdout (printable : Char → Bool) (addr : CodeCard → Nat) (out : List (VMsg SymMsg)) : Str :=
  printed (out.flatMap (VMsg.text fun m => if m.onStdout then m.text printable addr else []))

/-- What a symbol tool writes on the standard error stream. -/
def symStderr (printable : Char → Bool) (addr : CodeCard → Nat) (out : List (VMsg SymMsg)) : Str :=
  printed (out.flatMap fun
    | .msg m => if m.onStdout then [] else m.text printable addr
    | _ => [])

/-- What parse.py writes on the standard error stream: the messages of the symbol table. -/
def parseStderr (printable : Char → Bool) (addr : CodeCard → Nat) (out : List (VMsg ParseMsg)) : Str :=
  printed (out.flatMap fun
    | .msg (.inl m) => m.text printable addr
    | _ => [])

end H800
