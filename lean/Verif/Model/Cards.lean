import Verif.Py

/-!
Model of `h800/punchcard.py` and `h800/arguscard.py`.

`verbose` only prints and is left out here (see `Model/Verbose`). An attribute that the constructor may leave unset is an
`Option`; reading it when unset is AttributeError.
-/

namespace H800

/-- A value of a card's record: None, a string, or the line number. -/
inductive RVal where
  | none
  | str (s : Str)
  | int (n : Int)
  deriving DecidableEq, Repr

/-- punchcard.py 31: `_DEFAULT_WIDTH`; arguscard.py 13: `_WIDTH`. -/
def DEFAULT_WIDTH : Int := 120

/-- punchcard.py 32: `_DEFAULT_FIELDS`; arguscard.py 14: `_FIELDS`. -/
def DEFAULT_FIELDS : List Int := [1, 2, 8, 9, 20, 33, 47, 61, 76, 81]

/-- punchcard.py 33-44: `_DEFAULT_FIELDNAMES`; arguscard.py 15-26: `_FIELDNAMES`. -/
def DEFAULT_FIELDNAMES : List Str :=
  [py "column1", py "lognum", py "column8", py "label", py "operation", py "operand1",
   py "operand2", py "operand3", py "misc", py "remarks"]

/-- The attributes of a card that are set only for non-comment cards (punchcard.py 66-70). -/
structure CardBody where
  /-- `_fields` -/
  fields : List Str
  /-- `_strippedFields` -/
  stripped : List (Option Str)
  /-- `_record` -/
  record : Dict Str RVal
  deriving DecidableEq, Repr

/-- punchcard.py 47-57: the attributes of a `PunchCard`. `Card` of arguscard.py has no others. -/
structure PunchCard where
  /-- `_line` -/
  line : Str
  /-- `_layout` -/
  layout : List (Int × Int)
  /-- `_filename` -/
  filename : Option Str
  /-- `_linenum` -/
  linenum : Int
  /-- `_comment` -/
  isComment : Bool
  /-- `_fields`, `_strippedFields`, `_record` -/
  body : Option CardBody
  deriving DecidableEq, Repr

namespace PunchCard

/-- punchcard.py 59-65: start column and width of each field; the last one extends to `width`. -/
def layoutOf (width : Int) : List Int → List (Int × Int)
  | [] => []
  | [col] => [(col, width - col + 1)]
  | col :: next :: rest => (col, next - col) :: layoutOf width (next :: rest)

/-- punchcard.py 67-68: the text of each field. -/
def fieldsOf (line : Str) (layout : List (Int × Int)) : List Str :=
  layout.map fun p => slice line (p.1 - 1) (p.1 - 1 + p.2)

/-- punchcard.py 74-79: the value of one field. -/
def entry (field : Str) : Option Str := if strip field = [] then none else some (strip field)

/-- A stripped field as a value of the record. -/
def ofEntry : Option Str → RVal
  | none => .none
  | some s => .str s

/-- punchcard.py 73-79: fill the record; `fieldnames[i]` is IndexError when there are too few
names. -/
def fill : List Str → List Str → Dict Str RVal → Py (Dict Str RVal)
  | [], _, r => .ok r
  | _ :: _, [], _ => .error .indexError
  | f :: fs, n :: ns, r => fill fs ns (dset r n (ofEntry (entry f)))

/-- punchcard.py 49-79: the constructor. -/
def init (line : Str) (width : Int) (fields : List Int) (fieldnames : List Str)
    (filename : Option Str) (linenum : Int) : Py PunchCard :=
  if startsWith line '#' then
    .ok ⟨remove line '\n', [], filename, linenum, true, none⟩
  else
    let layout := layoutOf width fields
    let fs := fieldsOf line layout
    match fill fs fieldnames (if linenum ≠ 0 then [(py "linenum", .int linenum)] else []) with
    | .error e => .error e
    | .ok r =>
      .ok ⟨remove line '\n', layout, filename, linenum, false, some ⟨fs, fs.map entry, r⟩⟩

/-- Reading one of the attributes set only for non-comment cards. -/
def getBody (c : PunchCard) : Py CardBody :=
  match c.body with
  | some b => .ok b
  | none => .error .attributeError

/-- punchcard.py 89-91: `fields`. -/
def fields (c : PunchCard) : Py (List Str) := do return (← c.getBody).fields

/-- punchcard.py 93-95: `strippedFields`. -/
def strippedFields (c : PunchCard) : Py (List (Option Str)) := do return (← c.getBody).stripped

/-- punchcard.py 97-99: `record`. -/
def record (c : PunchCard) : Py (Dict Str RVal) := do return (← c.getBody).record

/-- punchcard.py 113-118: `comment`. -/
def comment (c : PunchCard) : Option Str := if c.isComment then some c.line else none

/-- punchcard.py 120-121: `__str__`. -/
def toStr (c : PunchCard) : Str := c.line

/-- `record[name]`: AttributeError for a comment card, KeyError for an unknown name. -/
def item (c : PunchCard) (name : Str) : Py RVal := do dgetE (← c.record) name

end PunchCard

namespace Card

/-- arguscard.py 37-46: the entries replaced for a log, page or remark card. -/
def blankCode (line : Str) (r : Dict Str RVal) : Dict Str RVal :=
  dset (dset (dset (dset (dset (dset (dset r (py "label") .none) (py "operation") .none)
    (py "operand1") .none) (py "operand2") .none) (py "operand3") .none) (py "misc") .none)
    (py "remarks") (.str (strip (sliceFrom line 9)))

/-- arguscard.py 37: `column1` is P, R or L. -/
def isPRL (v : RVal) : Bool :=
  v = .str (py "P") || v = .str (py "R") || v = .str (py "L")

/-- arguscard.py 48-50: the value of `instruction`. `',' in n` is TypeError for an int, which cannot
be falsy here. -/
def instructionOf : RVal → Py RVal
  | .none => .ok .none
  | .str s => .ok (.str (if s.contains ',' then strip (splitFirst s ',') else s))
  | .int n => if n = 0 then .ok (.int n) else .error .typeError

/-- arguscard.py 37-50: the part of the constructor after `super().__init__`, on the record. -/
def finish (line : Str) (r : Dict Str RVal) : Py (Dict Str RVal) := do
  let c1 ← dgetE r (py "column1")
  let r1 := if isPRL c1 then blankCode line r else r
  let c1' ← dgetE r1 (py "column1")
  let r2 := if c1' = .str (py "L") then dset r1 (py "remarks") (.str (strip (sliceFrom line 9))) else r1
  let op ← dgetE r2 (py "operation")
  let ins ← instructionOf op
  return dset r2 (py "instruction") ins

/-- arguscard.py 31-50: the constructor of `Card`. A comment card has no record, so reading
`column1` raises AttributeError. -/
def init (line : Str) (width : Int) (fields : List Int) (fieldnames : List Str)
    (filename : Option Str) (linenum : Int) : Py PunchCard :=
  match PunchCard.init line width fields fieldnames filename linenum with
  | .error e => .error e
  | .ok c =>
    match c.body with
    | none => .error .attributeError
    | some b =>
      match finish c.line b.record with
      | .error e => .error e
      | .ok r => .ok { c with body := some { b with record := r } }

/-- arguscard.py 52-54: `column1`. -/
def column1 (c : PunchCard) : Py RVal := c.item (py "column1")

/-- arguscard.py 56-58: `lognum`. -/
def lognum (c : PunchCard) : Py RVal := c.item (py "lognum")

/-- arguscard.py 60-62: `column8`. -/
def column8 (c : PunchCard) : Py RVal := c.item (py "column8")

/-- arguscard.py 64-70: `label`, `location`. -/
def label (c : PunchCard) : Py RVal := c.item (py "label")

/-- arguscard.py 72-74: `operation`. -/
def operation (c : PunchCard) : Py RVal := c.item (py "operation")

/-- arguscard.py 76-82: `operand1`, `addressa`. -/
def operand1 (c : PunchCard) : Py RVal := c.item (py "operand1")

/-- arguscard.py 84-90: `operand2`, `addressb`. -/
def operand2 (c : PunchCard) : Py RVal := c.item (py "operand2")

/-- arguscard.py 92-98: `operand3`, `addressc`. -/
def operand3 (c : PunchCard) : Py RVal := c.item (py "operand3")

/-- arguscard.py 100-102: `sequence`. -/
def sequence (c : PunchCard) : Py RVal := c.item (py "misc")

/-- arguscard.py 104-106: `remarks`. -/
def remarks (c : PunchCard) : Py RVal := c.item (py "remarks")

/-- arguscard.py 108-110: `instruction`. -/
def instruction (c : PunchCard) : Py RVal := c.item (py "instruction")

end Card

/-- A class passed as `cardclass`, called with the default field names (punchcard.py 146-148,
208-212, 214-218). -/
abbrev CardClass := Str → Int → List Int → Option Str → Int → Py PunchCard

/-- `cardclass=PunchCard`. -/
def punchClass : CardClass := fun line width fields filename linenum =>
  PunchCard.init line width fields DEFAULT_FIELDNAMES filename linenum

/-- `cardclass=Card`. -/
def argusClass : CardClass := fun line width fields filename linenum =>
  Card.init line width fields DEFAULT_FIELDNAMES filename linenum

/-- The regular files: name to text. Used for both `os.path.isfile` and `open`; a file that exists
but cannot be read or decoded is not modelled. -/
abbrev FileSystem := Str → Option Str

/-- punchcard.py 124-155: the attributes of a `Deck` after construction. -/
structure Deck where
  /-- `_lines` -/
  lines : List Str
  /-- `_cards` -/
  cards : List PunchCard
  /-- `_fields` -/
  fields : List (List Str)
  /-- `_strippedFields` -/
  strippedFields : List (List (Option Str))
  /-- `_records` -/
  records : List (Dict Str RVal)
  deriving DecidableEq, Repr

namespace Deck

/-- punchcard.py 140-148: the cards of a list of lines; `i` is the index of the first line. -/
def fromLines (cls : CardClass) (width : Int) (fields : List Int) (file : Option Str) :
    Nat → List Str → Py (List PunchCard)
  | _, [] => .ok []
  | i, line :: rest =>
    if startsWith line '#' then fromLines cls width fields file (i + 1) rest
    else do
      let c ← cls line width fields file (i + 1)
      return c :: (← fromLines cls width fields file (i + 1) rest)

/-- punchcard.py 194-219: the loop of `_readSource` over the lines of one file. `read` is the
recursive call. -/
def readLoop (fs : FileSystem) (cls : CardClass) (width : Int) (fields : List Int) (recurse : Bool)
    (read : Str → Py (List PunchCard)) (filename : Str) : Nat → List Str → Py (List PunchCard)
  | _, [] => .ok []
  | i, line :: rest =>
    if startsWith line '#' then
      readLoop fs cls width fields recurse read filename (i + 1) rest
    else if startsWith line '$' then do
      let inc ← firstWord (line.drop 1)
      if (fs inc).isNone then .error .systemExit
      else if recurse then do
        let icards ← read inc
        return icards ++ (← readLoop fs cls width fields recurse read filename (i + 1) rest)
      else do
        let c ← cls line width fields (some filename) (i + 1)
        return c :: (← readLoop fs cls width fields recurse read filename (i + 1) rest)
    else do
      let c ← cls line width fields (some filename) (i + 1)
      return c :: (← readLoop fs cls width fields recurse read filename (i + 1) rest)

/-- punchcard.py 183-219: `_readSource`. `fuel` is the number of nested calls the interpreter
allows; RecursionError beyond. The recursive call (205) always has `recurse=True`. -/
def readSource (fs : FileSystem) (cls : CardClass) (width : Int) (fields : List Int) :
    Nat → Bool → Str → Py (List PunchCard)
  | 0, _, _ => .error .recursionError
  | fuel + 1, recurse, filename =>
    match fs filename with
    | none => .error .systemExit
    | some text =>
      readLoop fs cls width fields recurse (readSource fs cls width fields fuel true) filename 0
        (readlines text)

/-- punchcard.py 149-155: collect the attributes of the cards. -/
def collect (lines : List Str) (cards : List PunchCard) : Py Deck := do
  let bodies ← cards.mapM PunchCard.getBody
  return ⟨lines, cards, bodies.map (·.fields), bodies.map (·.stripped), bodies.map (·.record)⟩

/-- punchcard.py 126-155: the constructor. `if file:` is false for the empty name; then
`enumerate(None)` is a TypeError. -/
def init (fs : FileSystem) (fuel : Nat) (lines : Option (List Str)) (file : Option Str)
    (width : Int) (fields : List Int) (cls : CardClass) : Py Deck :=
  match lines, file with
  | none, none => .error .systemExit
  | _, some (c :: cs) => do
    let cards ← readSource fs cls width fields fuel true (c :: cs)
    collect (cards.map (·.line)) cards
  | none, some [] => .error .typeError
  | some lines, file => do
    let cards ← fromLines cls width fields file 0 lines
    collect lines cards

/-- punchcard.py 177-181: `__str__`. -/
def toStr (d : Deck) : Str := joinWith '\n' (d.cards.map PunchCard.toStr)

end Deck

/-- arguscard.py 119-140: the attributes added by the ARGUS `Deck`. -/
structure ArgusDeck extends Deck where
  /-- `_logSection` -/
  logSection : Option Str
  /-- `_logSectionCol8` -/
  logSectionCol8 : RVal
  deriving DecidableEq, Repr

namespace ArgusDeck

/-- arguscard.py 127-132: the loop looking for the first log card. -/
def findLog : List PunchCard → Py (Option Str × RVal)
  | [] => .ok (none, .none)
  | c :: rest => do
    let c1 ← c.item (py "column1")
    if c1 = .str (py "L") then do
      let c8 ← c.item (py "column8")
      return (some (strip (slice c.line 8 81)), c8)
    else findLog rest

/-- arguscard.py 121-132: the constructor. -/
def init (fs : FileSystem) (fuel : Nat) (lines : Option (List Str)) (file : Option Str)
    (width : Int) (fields : List Int) (cls : CardClass) : Py ArgusDeck := do
  let d ← Deck.init fs fuel lines file width fields cls
  let l ← findLog d.cards
  return ⟨d, l.1, l.2⟩

end ArgusDeck

end H800
