import Verif.Model.Gen

/-!
genlines.py and genpages.py with the limit that the interpreter sets on the digits of decimal texts of
ints (`sys.set_int_max_str_digits`, 4300 if nothing is said; before Python 3.11 there was none). `int` of a
text with more digits and the text of a number with more digits raise ValueError. Python takes 0 for no limit,
which is Model/Gen, and no other limit below 640; here the limit is any number and always holds.
-/

namespace H800

/-- For `int` in genlines.py 45-70 and genpages.py 52-55: the number of digits in a text; leading zeros count, underscores do not. -/
def digitCount (s : Str) : Nat := (s.filter fun c => (digitVal c).isSome).length

/-- genlines.py 45-70, genpages.py 52-55: `int(s)`: ValueError if `s` has more digits than the limit, whether it is a literal or not. -/
def intMax (limit : Nat) (s : Str) : Py Int :=
  if digitCount s > limit then .error .valueError else pyInt s

/-- genlines.py 48 and 74, genpages.py 65 and 72-75: the text of a number: ValueError if it has more digits than the limit. The sign does not count. -/
def strMax (limit : Nat) (n : Int) : Py Str :=
  if (numeral 10 n.natAbs).length > limit then .error .valueError else .ok (pyStr n)

/-- genlines.py 60-70: an optional integer argument. -/
def intArgMax (limit : Nat) (args : List Str) (i : Nat) (default : Int) : Py Int :=
  match args[i]? with
  | none => .ok default
  | some s => intMax limit s

/-- genlines.py 28-71: the width of the numbers, the columns, and the numbers. -/
def genNumsMax (limit : Nat) (args : List Str) : Py (Nat × Int × Int × List Int) :=
  match args with
  | a0 :: a1 :: _ =>
    if a0.length > 6 then .error .systemExit
    else if a1.length > 6 then .error .systemExit
    else do
      let start ← intMax limit a0
      let end_ ← intMax limit a1
      let numdigits := (← strMax limit end_).length
      if numdigits > 6 then .error .systemExit
      else do
        let width := genWidth numdigits a1.length
        let step ← intArgMax limit args 2 1
        let startcol ← intArgMax limit args 3 2
        let endcol ← intArgMax limit args 4 7
        let nums ← pyRangeStep start (end_ + step) step
        return (width, startcol, endcol, nums)
  | _ => .error .systemExit

/-- genlines.py 72-76: the loop: the lines printed, and how it ends. -/
def genLoopMax (limit : Nat) (line : Int → Str) : List Int → List Str × Py Unit
  | [] => ([], .ok ())
  | i :: rest =>
    match strMax limit i with
    | .error e => ([], .error e)
    | .ok _ =>
      match genLoopMax limit line rest with
      | (out, r) => (line i :: out, r)

/-- genlines.py 28-76: `main`: the lines printed, and how it ends. -/
def genlinesMax (limit : Nat) (args : List Str) : List Str × Py Unit :=
  match genNumsMax limit args with
  | .error e => ([], .error e)
  | .ok (width, startcol, endcol, nums) => genLoopMax limit (genLine width startcol endcol) nums

/-- genpages.py 50-55: the page range. -/
def pagesOfMax (limit : Nat) (line : Str) : Py (Int × Int) := do
  let pageRange := strip (← getE (pyWords line) 2)
  if pageRange.contains '-' then do
    let start ← intMax limit ((pySplit '-' pageRange).getD 0 [])
    let end_ ← intMax limit ((pySplit '-' pageRange).getD 1 [])
    return (start, end_)
  else do
    let n ← intMax limit pageRange
    return (n, n)

/-- genpages.py 42-55: one line. -/
def pagesStepMax (limit : Nat) (st : PagesState) (line : Str) : Py PagesState := do
  let st ←
    if st.section_.isNone && hasPrefix (py "# Filename: ") line then do
      let s ← sectionOf line
      pure { st with section_ := some s, col8 := .str (py "@") }
    else pure st
  if hasPrefix (py "# Pages: ") line then do
    let p ← pagesOfMax limit line
    return { st with pages := some p }
  else return st

/-- genpages.py 32-65: the log section, its column 8 and the page range. -/
def pagesInfoMax (limit : Nat) (fs : FileSystem) (fuel : Nat) (inlines : List Str) : Py PagesState := do
  let d ← ArgusDeck.init fs fuel (some inlines) none DEFAULT_WIDTH DEFAULT_FIELDS argusClass
  inlines.foldlM (pagesStepMax limit) ⟨d.logSection, d.logSectionCol8, none⟩

/-- genpages.py 69-76: the loop over the pages, as far as it writes numbers. -/
def pagesLoopMax (limit : Nat) (start : Int) : List Int → Py Unit
  | [] => .ok ()
  | p :: rest => do
    let _ ← strMax limit p
    let _ ← strMax limit (p - start + 1)
    pagesLoopMax limit start rest

/-- genpages.py 21-79: `main`: the file system left behind. The text of `end` is taken in line 65, those of
the pages before the file is opened for writing. -/
def genpagesMax (limit : Nat) (fs : FileSystem) (fuel : Nat) (args : List Str) : FileSystem × Py Unit :=
  match args with
  | [] => (fs, .error .systemExit)
  | filename :: _ =>
    match fs filename with
    | none => (fs, .error .systemExit)
    | some text =>
      match pagesInfoMax limit fs fuel (readlines text) with
      | .error e => (fs, .error e)
      | .ok st =>
        match st.section_ with
        | none => (fs, .error .systemExit)
        | some section_ =>
          match st.pages with
          | none => (fs, .error .unboundLocal)
          | some (start, end_) =>
            if start > end_ then (fs, .error .systemExit)
            else
              match strMax limit end_, pagesLoopMax limit start (pyRange start (end_ + 1)) with
              | .ok _, .ok _ =>
                (writeFile fs filename
                  (text ++ (pagesLines st.col8 section_ start end_).flatten), .ok ())
              | .error e, _ => (fs, .error e)
              | .ok _, .error e => (fs, .error e)

end H800
