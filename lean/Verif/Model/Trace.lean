import Verif.Model.Tools

/-!
The scripts check-instructions.py, list-instructions.py and parse.py again, now with what they have
printed when they stop, also if they stop with an exception: messages, and how the script ended.
`Verif.Model.Tools` has the same scripts without the output of a failing run.
-/

namespace H800

/-- check-instructions.py 71-100: the loop over the files; the variables as they are when it stops. -/
def checkFilesRun (fs : FileSystem) (fuel : Nat) (opts : CheckOpts) :
    List Str → CheckState → CheckState × Py Unit
  | [], st => (st, .ok ())
  | f :: files, st =>
    match deckCards fs fuel f with
    | .error e => (st, .error e)
    | .ok cards => checkFilesRun fs fuel opts files (cards.foldl (checkStep opts) st)

/-- check-instructions.py 109-113, 115-119: the lines printed until the division fails, if it does. -/
def freqLinesRun (opts : CheckOpts) (instrcount : Nat) : Dict Str Nat → List CheckMsg × Py Unit
  | [] => ([], .ok ())
  | (inst, n) :: rest =>
    if (opts.unused && n ≠ 0) || !opts.unused then
      if instrcount = 0 then ([], .error .zeroDivision)
      else
        match freqLinesRun opts instrcount rest with
        | (l, r) => (.freq inst n instrcount :: l, r)
    else freqLinesRun opts instrcount rest

/-- check-instructions.py 121-130: the reports after the frequencies. -/
def checkTail (opts : CheckOpts) (st : CheckState) : List CheckMsg :=
  (if opts.unused then
    .unusedHeader :: ((byName st.instrtab).filter fun p => p.2 = 0).map fun p => .unused p.1
  else []) ++ [.errors st.errcount]

/-- check-instructions.py 57-130: `main`, with what is printed. -/
def checkRun (fs : FileSystem) (fuel : Nat) (opts : CheckOpts) (args : List Str) :
    List CheckMsg × Py Unit :=
  if args.length < 1 then ([], .error .systemExit)
  else
    match checkFilesRun fs fuel opts args CheckState.init with
    | (st, .error e) => (st.out, .error e)
    | (st, .ok ()) =>
      if opts.count then
        match freqLinesRun opts st.instrcount
            (if opts.sort then freqtab st.instrtab else byName st.instrtab) with
        | (l, .error e) => (st.out ++ .lines st.linecount :: .total st.instrcount :: l, .error e)
        | (l, .ok ()) =>
          (st.out ++ .lines st.linecount :: .total st.instrcount :: l ++ checkTail opts st, .ok ())
      else (st.out ++ checkTail opts st, .ok ())

/-- list-instructions.py 45-62: the loop over the files; the lines printed when it stops. -/
def listFilesRun (fs : FileSystem) (fuel : Nat) (details : Bool) (opcode : Str) :
    List Str → List Str × Py Unit
  | [] => ([], .ok ())
  | f :: files =>
    match deckCards fs fuel f with
    | .error e => ([], .error e)
    | .ok cards =>
      match listFilesRun fs fuel details opcode files with
      | (l, r) => ((cards.filter (listed opcode)).map (listLine details) ++ l, r)

/-- list-instructions.py 30-62: `main`, with what is printed. -/
def listRun (fs : FileSystem) (fuel : Nat) (details : Bool) (args : List Str) :
    List Str × Py Unit :=
  match args with
  | [] => ([], .error .systemExit)
  | opcode :: files =>
    let command := if opcode.contains ',' then splitFirst opcode ',' else opcode
    if ¬ INSTRUCTIONS.contains command then ([], .error .systemExit)
    else listFilesRun fs fuel details opcode files

/-- What parse.py printed when it stopped: on the standard output in the form of
check-instructions.py, and the numbers of errors of the files (parse.py 49-50) on the standard error
stream. -/
structure ParseOut where
  /-- standard output -/
  out : List CheckMsg
  /-- standard error stream -/
  fileErrs : List Nat
  deriving DecidableEq, Repr

/-- parse.py 46-50: the loop building the symbol table: the table, the error count and the numbers
printed. -/
def parseSymbolsRun (upper : Str → Str) (fs : FileSystem) (fuel : Nat) :
    List Str → Symtab → Nat → List Nat → Nat × List Nat × Py Unit
  | [], _, errcount, errs => (errcount, errs, .ok ())
  | f :: files, symtab, errcount, errs =>
    match buildSymbolTable upper fs fuel f symtab with
    | .error e => (errcount, errs, .error e)
    | .ok b => parseSymbolsRun upper fs fuel files b.symtab b.errcount (errs ++ [b.errcount])

/-- parse.py 55-74: one card; `card.parse()` does nothing. The variables are `linecount`, `errcount`
and what is printed; `instrcount` is not used. -/
def parseStepRun (debug : Bool) (st : Nat × Nat × List CheckMsg) (card : CodeCard) :
    Nat × Nat × List CheckMsg :=
  match st with
  | (linecount, errcount, out) =>
    match card.instruction with
    | none => (linecount + 1, errcount, out)
    | some [] => (linecount + 1, errcount, out)
    | some (x :: xs) =>
      let out := if debug then out ++ [.card card] else out
      if card.column8 = some (py "*") then (linecount + 1, errcount, out)
      else if ¬ INSTRUCTIONS.contains (x :: xs) then
        (linecount + 1, errcount + 1, out ++ [.invalid card])
      else (linecount + 1, errcount, out)

/-- parse.py 52-74: the loop over the decks. -/
def parseDecksRun (fs : FileSystem) (fuel : Nat) (debug : Bool) :
    List Str → Nat × Nat × List CheckMsg → (Nat × Nat × List CheckMsg) × Py Unit
  | [], st => (st, .ok ())
  | f :: files, st =>
    match deckCards fs fuel f with
    | .error e => (st, .error e)
    | .ok cards => parseDecksRun fs fuel debug files (cards.foldl (parseStepRun debug) st)

/-- parse.py 32-81: `main`, with what is printed. -/
def parseRun (upper : Str → Str) (fs : FileSystem) (fuel : Nat) (debug : Bool) (args : List Str) :
    ParseOut × Py Unit :=
  if args.length < 1 then (⟨[], []⟩, .error .systemExit)
  else
    match parseSymbolsRun upper fs fuel args [] 0 [] with
    | (_, errs, .error e) => (⟨[], errs⟩, .error e)
    | (errcount, errs, .ok ()) =>
      match parseDecksRun fs fuel debug args (0, errcount, []) with
      | ((_, _, out), .error e) => (⟨out, errs⟩, .error e)
      | ((linecount, errcount, out), .ok ()) =>
        (⟨out ++ [.lines linecount, .errors errcount], errs⟩, .ok ())

end H800
