import Verif.Model.Cards

/-!
Model of the functions `buildSymbolTable`, `checkSymbolTable`, `getAbsoluteSymbols` and
`findSymbolDef` of `h800/symbol_table.py`.

`upper` stands for `str.upper` and `extract` for `fuzzywuzzy.process.extract`; both are parameters.
-/

namespace H800

/-- symbol_table.py 9: `TAG_PREFIXES`. -/
def TAG_PREFIXES : List Str := [py "B", py "F", py "L", py "S", py "X", py "Z"]

/-- The properties of an ARGUS card that `buildSymbolTable` and the tools read. -/
structure CodeCard where
  /-- `filename` -/
  file : Option Str
  /-- `linenum` -/
  line : Int
  /-- `column1` -/
  column1 : Option Str
  /-- `lognum` -/
  lognum : Option Str
  /-- `column8` -/
  column8 : Option Str
  /-- `label` -/
  label : Option Str
  /-- `operation` -/
  operation : Option Str
  /-- `addressa` -/
  addressa : Option Str
  /-- `addressb` -/
  addressb : Option Str
  /-- `addressc` -/
  addressc : Option Str
  /-- `instruction` -/
  instruction : Option Str
  /-- `line` -/
  text : Str
  deriving DecidableEq, Repr

/-- A record entry as None or a string. No entry but `linenum` is an int. -/
def RVal.text : RVal → Py (Option Str)
  | .none => .ok .none
  | .str s => .ok (some s)
  | .int _ => .error .typeError

/-- Read the properties of a card (arguscard.py 52-110). The code reads them one by one as needed;
no read fails on a card of a deck, so the order does not matter. -/
def codeCard (c : PunchCard) : Py CodeCard := do
  let column1 ← (← Card.column1 c).text
  let lognum ← (← Card.lognum c).text
  let column8 ← (← Card.column8 c).text
  let label ← (← Card.label c).text
  let operation ← (← Card.operation c).text
  let a ← (← Card.operand1 c).text
  let b ← (← Card.operand2 c).text
  let cc ← (← Card.operand3 c).text
  let ins ← (← Card.instruction c).text
  return ⟨c.filename, c.linenum, column1, lognum, column8, label, operation, a, b, cc, ins, c.line⟩

/-- symbol_table.py 197-203: one definition. -/
structure SymEntry where
  /-- "file" -/
  file : Option Str
  /-- "line" -/
  line : Int
  /-- "lognum" -/
  lognum : Option Str
  /-- "tagtype" -/
  tagtype : Str
  /-- "card" -/
  card : CodeCard
  deriving DecidableEq, Repr

/-- The symbol table: tag, segment, subsegment, kind ("simple" or "complex") to definition. -/
abbrev Symtab := Dict Str (Dict Str (Dict Str (Dict Str SymEntry)))

/-- The errors that are printed and counted. -/
inductive SymErr where
  | case | commas | tagPrefix | unsupported | noOperation | multiple
  deriving DecidableEq, Repr

/-- An error as it is printed (symbol_table.py 206-259, 292-299): the message with the label, and
`symtabEntry` as it is at that time. -/
structure Diag where
  /-- which message -/
  err : SymErr
  /-- the label or tag named in it -/
  label : Str
  /-- "file" -/
  file : Option Str
  /-- "line" -/
  line : Int
  /-- "lognum" -/
  lognum : Option Str
  /-- "tagtype" -/
  tagtype : Option Str
  /-- "card" -/
  card : CodeCard
  /-- 294-295: the previous definitions; only printed for `multiple` -/
  prev : Dict Str SymEntry
  /-- 298: the command; only printed for `multiple` -/
  command : Option Str
  deriving DecidableEq, Repr

/-- The variables of `buildSymbolTable`. `diags` lists the errors printed. -/
structure BuildState where
  /-- `symtab` -/
  symtab : Symtab
  /-- `subseg` -/
  subseg : Str
  /-- `errcount` -/
  errcount : Nat
  /-- the errors printed -/
  diags : List Diag

/-- Print and count an error. -/
def BuildState.report (s : BuildState) (r : Diag) : BuildState :=
  { s with errcount := s.errcount + 1, diags := s.diags ++ [r] }

/-- symbol_table.py 190-193: the subsegment named by a SETLOC command. -/
def setlocName (command : Str) : Str :=
  if command.contains ',' then strip ((pySplit ',' command).getD 1 []) else py "0"

/-- symbol_table.py 188-194: the current subsegment after a command. -/
def nextSubseg (subseg : Str) (command : Option Str) : Str :=
  match command with
  | none => subseg
  | some c => if hasPrefix (py "SETLOC") c then setlocName c else subseg

/-- symbol_table.py 204: the label as it is checked. -/
def cleanLabel (label : Str) : Str := remove (strip label) ' '

/-- symbol_table.py 205-237: check a label; the tag name and tag type, or the error. -/
def checkLabel (upper : Str → Str) (strLabel : Str) : Except SymErr (Str × Str) :=
  if upper strLabel ≠ strLabel then .error .case
  else if strLabel.contains ',' then
    if strLabel.count ',' > 1 then .error .commas
    else
      let tagPrefix := (pySplit ',' strLabel).getD 0 []
      let tagName := (pySplit ',' strLabel).getD 1 []
      if ¬ TAG_PREFIXES.contains tagPrefix then .error .tagPrefix
      else if [py "L", py "X"].contains tagPrefix then .error .unsupported
      else .ok (tagName, tagPrefix)
  else .ok (strLabel, py " ")

/-- symbol_table.py 263-266: the kind of a definition. -/
def symtypeOf (command : Str) : Str :=
  if command = py "ASSIGN" then py "complex" else py "simple"

/-- symbol_table.py 280-299: the definition of a tag already present in this segment and subsegment.
`prevdef` is keyed by segment, not by kind; when a segment has the name of the kind, `["card"]` is
looked up among its subsegments (KeyError), and if found is a dict without `operation`
(AttributeError). -/
def redefine (st : BuildState) (seg : Str) (tagName symtype command : Str) (entry : SymEntry)
    (prevdef : Dict Str (Dict Str (Dict Str SymEntry)))
    (subs : Dict Str (Dict Str SymEntry)) (kinds : Dict Str SymEntry) : Py BuildState :=
  match dget prevdef symtype with
  | none =>
    .ok { st with symtab := dset st.symtab tagName (dset prevdef seg (dset subs st.subseg
      (dset kinds symtype entry))) }
  | some weird =>
    if command = py "EQUALS" then
      match dget weird (py "card") with
      | none => .error .keyError
      | some _ => .error .attributeError
    else .ok (st.report ⟨.multiple, tagName, entry.file, entry.line, entry.lognum,
      some entry.tagtype, entry.card, kinds, some command⟩)

/-- symbol_table.py 267-299: enter a definition. -/
def define (st : BuildState) (seg : Str) (tagName symtype command : Str) (entry : SymEntry) :
    Py BuildState :=
  match dget st.symtab tagName with
  | none =>
    .ok { st with symtab := dset st.symtab tagName [(seg, [(st.subseg, [(symtype, entry)])])] }
  | some segs =>
    match dget segs seg with
    | none =>
      .ok { st with symtab := dset st.symtab tagName (dset segs seg
        [(st.subseg, [(symtype, entry)])]) }
    | some subs =>
      match dget subs st.subseg with
      | none =>
        .ok { st with symtab := dset st.symtab tagName (dset segs seg (dset subs st.subseg
          [(symtype, entry)])) }
      | some kinds => redefine st seg tagName symtype command entry segs subs kinds

/-- symbol_table.py 196-299: the part of the loop for a labelled card. In `symtabEntry` the tag type is
None (201) until the case of the label has been checked (213), and then a blank until there is a prefix
(237). -/
def defineLabel (upper : Str → Str) (seg : Str) (st : BuildState) (card : CodeCard)
    (label : Str) : Py BuildState :=
  match checkLabel upper (cleanLabel label) with
  | .error e => .ok (st.report ⟨e, cleanLabel label, card.file, card.line, card.lognum,
      if e = .case then none else some (py " "), card, [], none⟩)
  | .ok (tagName, tagtype) =>
    match card.operation with
    | none => .ok (st.report ⟨.noOperation, cleanLabel label, card.file, card.line, card.lognum,
        some tagtype, card, [], none⟩)
    | some command =>
      define st seg tagName (symtypeOf command) command
        ⟨card.file, card.line, card.lognum, tagtype, card⟩

/-- symbol_table.py 185-299: one round of the loop. -/
def buildStep (upper : Str → Str) (seg : Str) (st : BuildState) (card : CodeCard) :
    Py BuildState :=
  if card.column8 = some (py "*") then .ok st
  else
    let st := { st with subseg := nextSubseg st.subseg card.operation }
    match card.label with
    | none => .ok st
    | some [] => .ok st
    | some label => defineLabel upper seg st card label

/-- symbol_table.py 185-299: the loop. -/
def buildCards (upper : Str → Str) (seg : Str) (st : BuildState) (cards : List CodeCard) :
    Py BuildState := cards.foldlM (buildStep upper seg) st

/-- `Deck(file=filename).cards` (arguscard.py 119-132), with the properties of the cards read. -/
def deckCards (fs : FileSystem) (fuel : Nat) (filename : Str) : Py (List CodeCard) := do
  let d ← ArgusDeck.init fs fuel none (some filename) DEFAULT_WIDTH DEFAULT_FIELDS argusClass
  d.cards.mapM codeCard

/-- symbol_table.py 178-300: `buildSymbolTable`; the list `subsegs` is not used by anyone. -/
def buildSymbolTable (upper : Str → Str) (fs : FileSystem) (fuel : Nat) (filename : Str)
    (symtab : Symtab) : Py BuildState := do
  let seg := splitFirst filename '.'
  let cards ← deckCards fs fuel filename
  buildCards upper seg ⟨symtab, py "1", 0, []⟩ cards

/-- The keys of a dict, sorted. -/
def sortedKeys {ν : Type} (d : Dict Str ν) : List Str := pySortedStr (d.map (·.1))

/-- A value of a dict under one of its own keys. -/
def dat {κ ν : Type} [DecidableEq κ] (d : Dict κ (Dict Str ν)) (k : κ) : Dict Str ν :=
  (dget d k).getD []

/-- symbol_table.py 308-313: whether some segment and subsegment of a symbol has the kind. -/
def foundKind (symtab : Symtab) (symbol kind : Str) : Bool :=
  (sortedKeys (dat symtab symbol)).any fun seg =>
    (sortedKeys (dat (dat symtab symbol) seg)).any fun subseg =>
      (dget (dat (dat (dat symtab symbol) seg) subseg) kind).isSome

/-- symbol_table.py 303-320: `checkSymbolTable`. -/
def checkSymbolTable (symtab : Symtab) (complexOnlyError : Bool) : List Str :=
  pySortedStr ((sortedKeys symtab).filter fun symbol =>
    !foundKind symtab symbol (py "simple") &&
      (complexOnlyError && foundKind symtab symbol (py "complex")))

/-- symbol_table.py 328-335: the loop of `getAbsoluteSymbols` over the segments of a symbol: whether
the symbol is appended, and the new value of `found`. -/
def absoluteSegs (segs : Dict Str (Dict Str (Dict Str SymEntry))) (found : Bool) :
    List Str → Bool × Bool
  | [] => (false, found)
  | seg :: rest =>
    if (sortedKeys (dat segs seg)).any fun subseg =>
        (dget (dat (dat segs seg) subseg) (py "simple")).isSome
    then (true, true)
    else if found then (false, found)
    else absoluteSegs segs found rest

/-- symbol_table.py 327-335: the loop of `getAbsoluteSymbols` over the symbols. `found` is never
reset. -/
def absoluteLoop (symtab : Symtab) (found : Bool) : List Str → List Str
  | [] => []
  | symbol :: rest =>
    let r := absoluteSegs (dat symtab symbol) found (sortedKeys (dat symtab symbol))
    if r.1 then symbol :: absoluteLoop symtab r.2 rest else absoluteLoop symtab r.2 rest

/-- symbol_table.py 323-336: `getAbsoluteSymbols`. -/
def getAbsoluteSymbols (symtab : Symtab) : List Str :=
  absoluteLoop symtab false (sortedKeys symtab)

/-- What `findSymbolDef` returns. -/
inductive Found where
  /-- the definitions of one symbol -/
  | defs (d : Dict Str (Dict Str (Dict Str SymEntry)))
  /-- a list of names -/
  | names (l : List Str)
  /-- None -/
  | nothing

/-- symbol_table.py 344-353, 374: an exact lookup; the number is that of the errors printed. -/
def findExact (symtab : Symtab) (name : Str) (symtype : Option Str) : Found × Nat :=
  if (sortedKeys symtab).contains name then
    match symtype with
    | none => (.defs (dat symtab name), 0)
    | some k => if foundKind symtab name k then (.defs (dat symtab name), 0) else (.nothing, 1)
  else (.nothing, 1)

/-- symbol_table.py 339-374: `findSymbolDef`. `extract query choices limit` is the list of matches
(without the scores). -/
def findSymbolDef (extract : Str → List Str → Nat → List Str) (symtab : Symtab) (name : Str)
    (symtype : Option Str) (begin end_ fuzzy : Bool) : Found × Nat :=
  if !begin && !end_ && !fuzzy then findExact symtab name symtype
  else if begin || end_ then
    (.names ((sortedKeys symtab).flatMap fun sym =>
      (if begin && hasPrefix name sym then [sym] else []) ++
        (if end_ && hasSuffix name sym then [sym] else [])), 0)
  else (.names (extract name (getAbsoluteSymbols symtab) 10), 0)

end H800
