import Verif.Model.Tools

/-!
Model of the scripts `tools/genlines.py` and `tools/genpages.py`.
-/

namespace H800

/-- The code points of the characters for zero among the decimal digits (general category `Nd`) of
Unicode 11, the version of Python 3.7; those for one to nine follow each of them. -/
def ZEROS : List Nat :=
  [0x30, 0x660, 0x6F0, 0x7C0, 0x966, 0x9E6, 0xA66, 0xAE6,
   0xB66, 0xBE6, 0xC66, 0xCE6, 0xD66, 0xDE6, 0xE50, 0xED0,
   0xF20, 0x1040, 0x1090, 0x17E0, 0x1810, 0x1946, 0x19D0, 0x1A80,
   0x1A90, 0x1B50, 0x1BB0, 0x1C40, 0x1C50, 0xA620, 0xA8D0, 0xA900,
   0xA9D0, 0xA9F0, 0xAA50, 0xABF0, 0xFF10, 0x104A0, 0x10D30, 0x11066,
   0x110F0, 0x11136, 0x111D0, 0x112F0, 0x11450, 0x114D0, 0x11650, 0x116C0,
   0x11730, 0x118E0, 0x11C50, 0x11D50, 0x11DA0, 0x16A60, 0x16B50, 0x1D7CE,
   0x1D7D8, 0x1D7E2, 0x1D7EC, 0x1D7F6, 0x1E950]

/-- `Py_UNICODE_TODECIMAL`, as `int` reads a digit: the value of a decimal digit of any script. -/
def digitVal (c : Char) : Option Nat :=
  match ZEROS.find? fun z => z ≤ c.toNat && c.toNat ≤ z + 9 with
  | none => none
  | some z => some (c.toNat - z)

/-- The rest of a decimal literal after a digit: digits, with single underscores between them. -/
def pyDigits (acc : Nat) : Str → Option Nat
  | [] => some acc
  | '_' :: c :: s =>
    match digitVal c with
    | none => none
    | some d => pyDigits (10 * acc + d) s
  | c :: s =>
    match digitVal c with
    | none => none
    | some d => pyDigits (10 * acc + d) s

/-- A decimal literal without sign. -/
def pyNat : Str → Option Nat
  | [] => none
  | c :: s =>
    match digitVal c with
    | none => none
    | some d => pyDigits d s

/-- The white space that `int` skips: that of `str.isspace` but for the separators U+001C to U+001F. -/
def intSpace (c : Char) : Bool := isSpace c && !(28 ≤ c.toNat && c.toNat ≤ 31)

/-- The text without the white space around it that `int` skips. -/
def intStrip (s : Str) : Str := ((s.dropWhile intSpace).reverse.dropWhile intSpace).reverse

/-- `int(s)`: ValueError if `s` is not a decimal literal. -/
def pyInt (s : Str) : Py Int :=
  match intStrip s with
  | '-' :: t => match pyNat t with
    | some n => .ok (-(n : Int))
    | none => .error .valueError
  | '+' :: t => match pyNat t with
    | some n => .ok n
    | none => .error .valueError
  | t => match pyNat t with
    | some n => .ok n
    | none => .error .valueError

/-- `range(start, stop, step)`: ValueError for step 0. -/
def pyRangeStep (start stop step : Int) : Py (List Int) :=
  if step = 0 then .error .valueError
  else
    let n := if step > 0 then (stop - start + step - 1) / step
      else (start - stop + (-step) - 1) / (-step)
    .ok ((List.range n.toNat).map fun (i : Nat) => start + i * step)

/-- `k * ' '`. -/
def spaces (k : Int) : Str := List.replicate k.toNat ' '

/-- genlines.py 74-75: `"{num:0width}"`: padded with zeros after the sign. -/
def zeroPad (width : Nat) (n : Int) : Str :=
  if n < 0 then '-' :: padLeft '0' (width - 1) (numeral 10 n.natAbs)
  else padLeft '0' width (numeral 10 n.natAbs)

/-- genlines.py 73-76: one line. -/
def genLine (width : Nat) (startcol endcol i : Int) : Str :=
  spaces (startcol - 1) ++ zeroPad width i ++ spaces (endcol + 2 - startcol - width)

/-- genlines.py 53-58: the width of the numbers; `ndigits` is that of the second argument. -/
def genWidth (numdigits ndigits : Nat) : Nat :=
  let width := if numdigits < 4 then 4 else numdigits
  if width < ndigits then ndigits else width

/-- An optional integer argument. -/
def intArg (args : List Str) (i : Nat) (default : Int) : Py Int :=
  match args[i]? with
  | none => .ok default
  | some s => pyInt s

/-- genlines.py 28-76: `main`: the lines printed. -/
def genlines (args : List Str) : Py (List Str) :=
  match args with
  | a0 :: a1 :: _ =>
    if a0.length > 6 then .error .systemExit
    else if a1.length > 6 then .error .systemExit
    else do
      let start ← pyInt a0
      let end_ ← pyInt a1
      let numdigits := (pyStr end_).length
      if numdigits > 6 then .error .systemExit
      else do
        let width := genWidth numdigits a1.length
        let step ← intArg args 2 1
        let startcol ← intArg args 3 2
        let endcol ← intArg args 4 7
        let nums ← pyRangeStep start (end_ + step) step
        return nums.map (genLine width startcol endcol)
  | _ => .error .systemExit

/-! ### genpages.py -/

/-- `s.split()`, with the current word `w` (reversed). -/
def wordsAux (w : Str) : Str → List Str
  | [] => if w = [] then [] else [w.reverse]
  | c :: s =>
    if isSpace c then (if w = [] then wordsAux [] s else w.reverse :: wordsAux [] s)
    else wordsAux (c :: w) s

/-- `s.split()`. -/
def pyWords (s : Str) : List Str := wordsAux [] s

/-- genpages.py 38-55: the variables of the loop; `start` and `end` may be unbound. -/
structure PagesState where
  /-- `logsection` -/
  section_ : Option Str
  /-- `logsectioncol8` -/
  col8 : RVal
  /-- `start`, `end` -/
  pages : Option (Int × Int)
  deriving DecidableEq, Repr

/-- genpages.py 44-48: the log section named after the file. -/
def sectionOf (line : Str) : Py Str := do
  let infilename := strip (← getE (pyWords line) 2)
  let infilename := if infilename.contains '.' then splitFirst infilename '.' else infilename
  return infilename.map fun c => if c = '_' then ' ' else c

/-- genpages.py 50-55: the page range. -/
def pagesOf (line : Str) : Py (Int × Int) := do
  let pageRange := strip (← getE (pyWords line) 2)
  if pageRange.contains '-' then do
    let start ← pyInt ((pySplit '-' pageRange).getD 0 [])
    let end_ ← pyInt ((pySplit '-' pageRange).getD 1 [])
    return (start, end_)
  else do
    let n ← pyInt pageRange
    return (n, n)

/-- genpages.py 42-55: one line. -/
def pagesStep (st : PagesState) (line : Str) : Py PagesState := do
  let st ←
    if st.section_.isNone && hasPrefix (py "# Filename: ") line then do
      let s ← sectionOf line
      pure { st with section_ := some s, col8 := .str (py "@") }
    else pure st
  if hasPrefix (py "# Pages: ") line then do
    let p ← pagesOf line
    return { st with pages := some p }
  else return st

/-- `'%s' % v`. -/
def RVal.toStr : RVal → Str
  | .none => py "None"
  | .str s => s
  | .int n => pyStr n

/-- genpages.py 71-76: the lines for one page. -/
def pageLines (col8 : RVal) (section_ : Str) (start pagenum : Int) : List Str :=
  [py "\n", py "# Page " ++ pyStr pagenum ++ py "\n",
   py "#      " ++ col8.toStr ++ padRight 72 section_ ++ py " USER'S OWN PAGE NO." ++
     padLeft ' ' 4 (pyStr (pagenum - start + 1)) ++ py "        PAGE" ++
     padLeft ' ' 4 (pyStr (pagenum - start + 1)) ++ py "\n",
   py "\n"]

/-- genpages.py 67-76: the lines appended. -/
def pagesLines (col8 : RVal) (section_ : Str) (start end_ : Int) : List Str :=
  [py "\n", py "L      " ++ col8.toStr ++ section_ ++ py "\n"] ++
    (pyRange start (end_ + 1)).flatMap (pageLines col8 section_ start)

/-- genpages.py 32-65: the log section, its column 8 and the page range. -/
def pagesInfo (fs : FileSystem) (fuel : Nat) (inlines : List Str) : Py PagesState := do
  let d ← ArgusDeck.init fs fuel (some inlines) none DEFAULT_WIDTH DEFAULT_FIELDS argusClass
  inlines.foldlM pagesStep ⟨d.logSection, d.logSectionCol8, none⟩

/-- genpages.py 21-79: `main`: the file system left behind. -/
def genpages (fs : FileSystem) (fuel : Nat) (args : List Str) : FileSystem × Py Unit :=
  match args with
  | [] => (fs, .error .systemExit)
  | filename :: _ =>
    match fs filename with
    | none => (fs, .error .systemExit)
    | some text =>
      match pagesInfo fs fuel (readlines text) with
      | .error e => (fs, .error e)
      | .ok st =>
        match st.section_ with
        | none => (fs, .error .systemExit)
        | some section_ =>
          match st.pages with
          | none => (fs, .error .unboundLocal)
          | some (start, end_) =>
            if start > end_ then (fs, .error .systemExit)
            else
              (writeFile fs filename
                (text ++ (pagesLines st.col8 section_ start end_).flatten), .ok ())

end H800
