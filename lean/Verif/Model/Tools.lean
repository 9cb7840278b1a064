import Verif.Model.Symbols
import Verif.Model.Opcodes

/-!
Model of the scripts `tools/check-instructions.py`, `list-instructions.py`, `parse.py`,
`check-symbols.py`, `find-symbols.py`, `list-symbols.py` and `listing.py`.

Each script is a function of the file system, the recursion limit, the options and the remaining
arguments, as `optparse` leaves them. `parser.error` exits (SystemExit). Printed output is a list
of messages; what was printed before an exception is not kept (it is in `Model/Trace` and
`Model/SymTrace`), nor what `--verbose` adds (it is in `Model/Verbose`).
-/

namespace H800

/-- Pad a string on the right with spaces to at least `w` characters (`%-48s`). -/
def padRight (w : Nat) (s : Str) : Str := s ++ List.replicate (w - s.length) ' '

/-- `str(n)`. -/
def pyStr (n : Int) : Str :=
  if n < 0 then '-' :: numeral 10 n.natAbs else numeral 10 n.natAbs

/-! ### check-instructions.py -/

/-- check-instructions.py 22-51: the options. -/
structure CheckOpts where
  /-- `--all` -/
  all : Bool
  /-- `--count` -/
  count : Bool
  /-- `--invalid` -/
  invalid : Bool
  /-- `--print-opcodes` -/
  printOpcodes : Bool
  /-- `--sort` -/
  sort : Bool
  /-- `--unused` -/
  unused : Bool
  deriving DecidableEq, Repr

/-- What check-instructions.py prints. -/
inductive CheckMsg where
  /-- 78-79 -/
  | card (c : CodeCard)
  /-- 87-90 and 96-99 -/
  | invalid (c : CodeCard)
  /-- 103: `Source lines: %d` -/
  | lines (n : Nat)
  /-- 105: `Total` -/
  | total (n : Nat)
  /-- 111-113, 117-119: instruction, count, and the total the percentage refers to -/
  | freq (inst : Str) (n total : Nat)
  /-- 122: `Unused Instructions:` -/
  | unusedHeader
  /-- 125 -/
  | unused (inst : Str)
  /-- 127-130 -/
  | errors (n : Nat)
  deriving DecidableEq, Repr

/-- check-instructions.py 64-67: the variables. -/
structure CheckState where
  /-- `errcount` -/
  errcount : Nat
  /-- `linecount` -/
  linecount : Nat
  /-- `instrcount` -/
  instrcount : Nat
  /-- `instrtab` -/
  instrtab : Dict Str Nat
  /-- printed so far -/
  out : List CheckMsg
  deriving DecidableEq, Repr

/-- check-instructions.py 64-69: the initial state. -/
def CheckState.init : CheckState :=
  ⟨0, 0, 0, INSTRUCTIONS.foldl (fun d i => dset d i 0) [], []⟩

/-- check-instructions.py 74-100: one card; `if card.instruction:` is false for None and for the
empty string. The second test against `INSTRUCTIONS` (94-100) is kept. -/
def checkStep (opts : CheckOpts) (st : CheckState) (card : CodeCard) : CheckState :=
  let st := { st with linecount := st.linecount + 1 }
  match card.instruction with
  | none => st
  | some [] => st
  | some (x :: xs) =>
    let inst := x :: xs
    let st := { st with
      instrcount := st.instrcount + 1
      out := if opts.printOpcodes then st.out ++ [.card card] else st.out }
    if card.column8 = some (py "*") then st
    else
      match dget st.instrtab inst with
      | none => { st with errcount := st.errcount + 1, out := st.out ++ [.invalid card] }
      | some n =>
        let st := { st with instrtab := dset st.instrtab inst (n + 1) }
        if opts.invalid || opts.all then
          if INSTRUCTIONS.contains inst then st
          else { st with errcount := st.errcount + 1, out := st.out ++ [.invalid card] }
        else st

/-- check-instructions.py 71-100: the loop over the files. -/
def checkFiles (fs : FileSystem) (fuel : Nat) (opts : CheckOpts) (files : List Str)
    (st : CheckState) : Py CheckState :=
  files.foldlM (fun st f => do return (← deckCards fs fuel f).foldl (checkStep opts) st) st

/-- check-instructions.py 106-107: the items by decreasing count; `sorted(reverse=True)` keeps the
order of items with equal counts. -/
def freqtab (instrtab : Dict Str Nat) : Dict Str Nat :=
  pySorted (fun a b => decide (b.2 ≤ a.2)) instrtab

/-- check-instructions.py 109-113, 115-119: one line per instruction shown; a total of zero is
ZeroDivisionError. -/
def freqLines (opts : CheckOpts) (instrcount : Nat) : Dict Str Nat → Py (List CheckMsg)
  | [] => .ok []
  | (inst, n) :: rest =>
    if (opts.unused && n ≠ 0) || !opts.unused then
      if instrcount = 0 then .error .zeroDivision
      else do return .freq inst n instrcount :: (← freqLines opts instrcount rest)
    else freqLines opts instrcount rest

/-- check-instructions.py 115: the items in the order of the sorted keys. -/
def byName (instrtab : Dict Str Nat) : Dict Str Nat :=
  (pySortedStr (instrtab.map (·.1))).map fun i => (i, (dget instrtab i).getD 0)

/-- check-instructions.py 102-130: the reports. -/
def checkReport (opts : CheckOpts) (st : CheckState) : Py (List CheckMsg) := do
  let freqs ←
    if opts.count then do
      let l ← freqLines opts st.instrcount
        (if opts.sort then freqtab st.instrtab else byName st.instrtab)
      pure (.lines st.linecount :: .total st.instrcount :: l)
    else pure []
  let unused :=
    if opts.unused then
      .unusedHeader :: ((byName st.instrtab).filter fun p => p.2 = 0).map fun p => .unused p.1
    else []
  return st.out ++ freqs ++ unused ++ [.errors st.errcount]

/-- check-instructions.py 57-130: `main`. -/
def checkInstructions (fs : FileSystem) (fuel : Nat) (opts : CheckOpts) (args : List Str) :
    Py (List CheckMsg) :=
  if args.length < 1 then .error .systemExit
  else do checkReport opts (← checkFiles fs fuel opts args CheckState.init)

/-! ### list-instructions.py -/

/-- list-instructions.py 45-57: whether a card is listed. -/
def listed (opcode : Str) (card : CodeCard) : Bool :=
  match card.operation with
  | none => false
  | some [] => false
  | some operation =>
    if card.column8 = some (py "*") then false
    else
      let instruction := remove (strip operation) ' '
      let instruction :=
        if instruction.contains ',' && !opcode.contains ',' then splitFirst instruction ','
        else instruction
      instruction = opcode || (hasSuffix (py ",") opcode && hasPrefix opcode instruction)

/-- list-instructions.py 58-62: the line printed. The file name of a card of a deck read from a file
is not None. -/
def listLine (details : Bool) (card : CodeCard) : Str :=
  if details then
    padRight 48 (card.file.getD (py "None")) ++ ' ' :: padLeft ' ' 6 (pyStr card.line) ++
      ' ' :: card.text
  else card.text

/-- list-instructions.py 30-62: `main`. -/
def listInstructions (fs : FileSystem) (fuel : Nat) (details : Bool) (args : List Str) :
    Py (List Str) :=
  match args with
  | [] => .error .systemExit
  | opcode :: files =>
    let command := if opcode.contains ',' then splitFirst opcode ',' else opcode
    if ¬ INSTRUCTIONS.contains command then .error .systemExit
    else do
      let decks ← files.mapM (deckCards fs fuel)
      return decks.flatMap fun cards =>
        (cards.filter (listed opcode)).map (listLine details)

/-! ### parse.py -/

/-- parse.py 37-72: the variables. -/
structure ParseState where
  /-- `errcount` -/
  errcount : Nat
  /-- `linecount` -/
  linecount : Nat
  /-- `instrcount` -/
  instrcount : Nat
  /-- `symtab` -/
  symtab : Symtab
  /-- the numbers printed per file (49-50) -/
  fileErrs : List Nat

/-- parse.py 46-50: the loop building the symbol table; `errcount` is overwritten. -/
def parseSymbols (upper : Str → Str) (fs : FileSystem) (fuel : Nat) (files : List Str)
    (st : ParseState) : Py ParseState :=
  files.foldlM (fun st f => do
    let b ← buildSymbolTable upper fs fuel f st.symtab
    return { st with
      symtab := b.symtab, errcount := b.errcount, fileErrs := st.fileErrs ++ [b.errcount] }) st

/-- parse.py 55-74: one card. -/
def parseStep (st : ParseState) (card : CodeCard) : ParseState :=
  let st := { st with linecount := st.linecount + 1 }
  match card.instruction with
  | none => st
  | some [] => st
  | some (x :: xs) =>
    let st := { st with instrcount := st.instrcount + 1 }
    if card.column8 = some (py "*") then st
    else if INSTRUCTIONS.contains (x :: xs) then st
    else { st with errcount := st.errcount + 1 }

/-- parse.py 52-74: the loop over the decks. -/
def parseDecks (fs : FileSystem) (fuel : Nat) (files : List Str) (st : ParseState) :
    Py ParseState :=
  files.foldlM (fun st f => do return (← deckCards fs fuel f).foldl parseStep st) st

/-- parse.py 32-81: `main`. The final state; `linecount` and `errcount` are printed. -/
def parseMain (upper : Str → Str) (fs : FileSystem) (fuel : Nat) (args : List Str) :
    Py ParseState :=
  if args.length < 1 then .error .systemExit
  else do
    let st ← parseSymbols upper fs fuel args ⟨0, 0, 0, [], []⟩
    parseDecks fs fuel args st

/-! ### check-symbols.py -/

/-- What check-symbols.py prints. -/
structure SymReport where
  /-- 41-42: the errors of each file -/
  fileErrs : List Nat
  /-- 50-56: the undefined symbols with the possible matches -/
  undefined : List (Str × List Str)
  /-- 60-61: the total, printed for several files -/
  total : Option Nat

/-- check-symbols.py 37-42, find-symbols.py 65-70, list-symbols.py 33-36: build the table from all
files: the table, the errors per file and their sum. -/
def buildAll (upper : Str → Str) (fs : FileSystem) (fuel : Nat) (files : List Str) :
    Py (Symtab × List Nat × Nat) :=
  files.foldlM (fun r f => do
    let b ← buildSymbolTable upper fs fuel f r.1
    return (b.symtab, r.2.1 ++ [b.errcount], r.2.2 + b.errcount)) ([], [], 0)

/-- The matches printed for a symbol (check-symbols.py 51-56). -/
def matchesOf : Found × Nat → List Str
  | (.names l, _) => l
  | _ => []

/-- check-symbols.py 30-61: `main`. -/
def checkSymbols (upper : Str → Str) (extract : Str → List Str → Nat → List Str) (fs : FileSystem)
    (fuel : Nat) (complex : Bool) (args : List Str) : Py SymReport :=
  if args.length < 1 then .error .systemExit
  else do
    let (symtab, errs, toterrs) ← buildAll upper fs fuel args
    let errSyms := checkSymbolTable symtab complex
    return ⟨errs,
      errSyms.map fun s => (s, matchesOf (findSymbolDef extract symtab s none false false true)),
      if args.length > 1 then some (toterrs + errSyms.length) else none⟩

/-! ### find-symbols.py -/

/-- find-symbols.py 54-75: `main`; what is found, if it is printed (it is not if it is empty). -/
def findSymbols (upper : Str → Str) (extract : Str → List Str → Nat → List Str) (fs : FileSystem)
    (fuel : Nat) (begin end_ fuzzy exact : Bool) (args : List Str) : Py (Option Found) :=
  if (begin && exact) || (end_ && exact) || (begin && end_) ||
      (fuzzy && (begin || end_ || exact)) then .error .systemExit
  else
    match args with
    | [] => .error .systemExit
    | [_] => .error .systemExit
    | symbol :: files => do
      let (symtab, _, _) ← buildAll upper fs fuel files
      match (findSymbolDef extract symtab symbol none begin end_ fuzzy).1 with
      | .nothing => return none
      | .names [] => return none
      | .defs [] => return none
      | r => return some r

/-! ### list-symbols.py -/

/-- What list-symbols.py prints. -/
inductive ListLine where
  /-- 39 -/
  | sym (s : Str)
  /-- 41 -/
  | seg (s : Str)
  /-- 43 -/
  | sub (s : Str)
  /-- 46-51: kind, tag type, file without extension, line, card -/
  | entry (kind tagtype file : Str) (line : Int) (card : Str)
  /-- 54 -/
  | errors (n : Nat)
  deriving DecidableEq, Repr

/-- list-symbols.py 45-51: the line for one definition; `None.split` is AttributeError. -/
def entryLine (kind : Str) (e : SymEntry) : Py ListLine :=
  match e.file with
  | none => .error .attributeError
  | some f => .ok (.entry kind e.tagtype (splitFirst f '.') e.line e.card.text)

/-- list-symbols.py 44-51: the definitions in one subsegment. -/
def kindLines (kinds : Dict Str SymEntry) : Py (List ListLine) :=
  (sortedKeys kinds).mapM fun k => do entryLine k (← dgetE kinds k)

/-- list-symbols.py 42-51: one segment. -/
def subLines (subs : Dict Str (Dict Str SymEntry)) : Py (List ListLine) := do
  let l ← (sortedKeys subs).mapM fun k => do
    return .sub k :: (← kindLines (← dgetE subs k))
  return l.flatten

/-- list-symbols.py 40-51: one symbol. -/
def segLines (segs : Dict Str (Dict Str (Dict Str SymEntry))) : Py (List ListLine) := do
  let l ← (sortedKeys segs).mapM fun k => do
    return .seg k :: (← subLines (← dgetE segs k))
  return l.flatten

/-- list-symbols.py 38-51: the table. -/
def tableLines (symtab : Symtab) : Py (List ListLine) := do
  let l ← (sortedKeys symtab).mapM fun k => do
    return .sym k :: (← segLines (← dgetE symtab k))
  return l.flatten

/-- list-symbols.py 25-54: `main`. -/
def listSymbols (upper : Str → Str) (fs : FileSystem) (fuel : Nat) (args : List Str) :
    Py (List ListLine) :=
  if args.length < 1 then .error .systemExit
  else do
    let (symtab, _, errors) ← buildAll upper fs fuel args
    let l ← tableLines symtab
    return l ++ if errors > 0 then [.errors errors] else []

/-! ### listing.py -/

/-- listing.py 31: the name of the listing file. -/
def listfileOf (filename : Str) : Str :=
  joinWith '.' (pySplit '.' filename).dropLast ++ py ".lst"

/-- listing.py 44-46: the line of a card. The `0` of `%-06d` has no effect with `-`. -/
def deckLine (card : CodeCard) : Str :=
  padRight 64 (card.file.getD (py "None")) ++ ' ' :: padRight 6 (pyStr card.line) ++
    ' ' :: remove card.text '\n' ++ py "\n"

/-- Replace the content of a file. -/
def writeFile (fs : FileSystem) (name text : Str) : FileSystem :=
  fun f => if f = name then some text else fs f

/-- listing.py 30-49: the loop over the files: the file system left behind. -/
def listingFiles (fuel : Nat) (fs : FileSystem) : List Str → FileSystem × Py Unit
  | [] => (fs, .ok ())
  | filename :: rest =>
    match deckCards fs fuel filename with
    | .error e => (fs, .error e)
    | .ok cards =>
      listingFiles fuel (writeFile fs (listfileOf filename) (cards.flatMap deckLine)) rest

/-- listing.py 25-49: `main`. -/
def listingMain (fs : FileSystem) (fuel : Nat) (args : List Str) : FileSystem × Py Unit :=
  if args.length < 1 then (fs, .error .systemExit)
  else listingFiles fuel fs args

end H800
