import Verif.Model.Trace
import Verif.Model.SymTrace

/-!
Reading decks and the tools again, with the option `--verbose` and all that is printed in the order in
which it is printed, until the script stops. Printing is a list of messages; `VMsg.msg` wraps what the
tool prints without the option. `print` to the standard output and to the standard error stream are
kept in one list.
-/

namespace H800

/-- What a tool prints. -/
inductive VMsg (α : Type) where
  /-- punchcard.py 191-192: `Reading %s...` -/
  | reading (file : Str)
  /-- punchcard.py 196-198: `Skipping meta-comment, file %s, line %d` -/
  | meta_ (file : Str) (line : Nat)
  /-- check-instructions.py 81-84, list-instructions.py 47-50, parse.py 62-65: `Skipping card with *
  in column 8:` and the card -/
  | starred (c : CodeCard)
  /-- listing.py 48-49: `Wrote listing file to %s` -/
  | wrote (file : Str)
  /-- printed with and without `--verbose` -/
  | msg (m : α)
  deriving DecidableEq, Repr

namespace Deck

/-- punchcard.py 194-219: the loop of `_readSource` over the lines of one file, with what it prints.
`read` is the recursive call. -/
def readLoopV {α : Type} (verbose : Bool) (fs : FileSystem) (cls : CardClass) (width : Int)
    (fields : List Int) (recurse : Bool) (read : Str → List (VMsg α) × Py (List PunchCard))
    (filename : Str) : Nat → List Str → List (VMsg α) × Py (List PunchCard)
  | _, [] => ([], .ok [])
  | i, line :: rest =>
    if startsWith line '#' then
      match readLoopV verbose fs cls width fields recurse read filename (i + 1) rest with
      | (out, r) => ((if verbose then [.meta_ filename (i + 1)] else []) ++ out, r)
    else if startsWith line '$' then
      match firstWord (line.drop 1) with
      | .error e => ([], .error e)
      | .ok inc =>
        if (fs inc).isNone then ([], .error .systemExit)
        else if recurse then
          match read inc with
          | (out, .error e) => (out, .error e)
          | (out, .ok icards) =>
            match readLoopV verbose fs cls width fields recurse read filename (i + 1) rest with
            | (out', .error e) => (out ++ out', .error e)
            | (out', .ok cards) => (out ++ out', .ok (icards ++ cards))
        else
          match cls line width fields (some filename) (i + 1) with
          | .error e => ([], .error e)
          | .ok c =>
            match readLoopV verbose fs cls width fields recurse read filename (i + 1) rest with
            | (out, .error e) => (out, .error e)
            | (out, .ok cards) => (out, .ok (c :: cards))
    else
      match cls line width fields (some filename) (i + 1) with
      | .error e => ([], .error e)
      | .ok c =>
        match readLoopV verbose fs cls width fields recurse read filename (i + 1) rest with
        | (out, .error e) => (out, .error e)
        | (out, .ok cards) => (out, .ok (c :: cards))

/-- punchcard.py 183-219: `_readSource`, with what it prints. -/
def readSourceV {α : Type} (verbose : Bool) (fs : FileSystem) (cls : CardClass) (width : Int)
    (fields : List Int) : Nat → Bool → Str → List (VMsg α) × Py (List PunchCard)
  | 0, _, _ => ([], .error .recursionError)
  | fuel + 1, recurse, filename =>
    match fs filename with
    | none => ([], .error .systemExit)
    | some text =>
      match readLoopV verbose fs cls width fields recurse
        (readSourceV verbose fs cls width fields fuel true) filename 0 (readlines text) with
      | (out, r) => ((if verbose then [.reading filename] else []) ++ out, r)

end Deck

/-- `Deck(file=filename, verbose=verbose)` (punchcard.py 126-155, arguscard.py 121-132) with the
properties of its cards read, as in `deckCards`, and what is printed. Nothing is printed after
`_readSource`; for the empty name the file is not read (136). -/
def deckCardsV {α : Type} (verbose : Bool) (fs : FileSystem) (fuel : Nat) (filename : Str) :
    List (VMsg α) × Py (List CodeCard) :=
  match filename with
  | [] => ([], .error .typeError)
  | c :: cs =>
    match Deck.readSourceV verbose fs argusClass DEFAULT_WIDTH DEFAULT_FIELDS fuel true (c :: cs) with
    | (out, .error e) => (out, .error e)
    | (out, .ok cards) =>
      (out, do
        let d ← Deck.collect (cards.map (·.line)) cards
        let _ ← ArgusDeck.findLog d.cards
        d.cards.mapM codeCard)

/-! ### check-instructions.py -/

/-- check-instructions.py 64-67: the variables, and what is printed. -/
structure CheckStateV where
  /-- `errcount` -/
  errcount : Nat
  /-- `linecount` -/
  linecount : Nat
  /-- `instrcount` -/
  instrcount : Nat
  /-- `instrtab` -/
  instrtab : Dict Str Nat
  /-- printed so far -/
  out : List (VMsg CheckMsg)

/-- check-instructions.py 64-69: the initial state. -/
def CheckStateV.init : CheckStateV :=
  ⟨0, 0, 0, INSTRUCTIONS.foldl (fun d i => dset d i 0) [], []⟩

/-- check-instructions.py 74-100: one card. -/
def checkStepV (verbose : Bool) (opts : CheckOpts) (st : CheckStateV) (card : CodeCard) :
    CheckStateV :=
  let st := { st with linecount := st.linecount + 1 }
  match card.instruction with
  | none => st
  | some [] => st
  | some (x :: xs) =>
    let inst := x :: xs
    let st := { st with
      instrcount := st.instrcount + 1
      out := if opts.printOpcodes then st.out ++ [VMsg.msg (CheckMsg.card card)] else st.out }
    if card.column8 = some (py "*") then
      { st with out := if verbose then st.out ++ [VMsg.starred card] else st.out }
    else
      match dget st.instrtab inst with
      | none => { st with errcount := st.errcount + 1, out := st.out ++ [VMsg.msg (CheckMsg.invalid card)] }
      | some n =>
        let st := { st with instrtab := dset st.instrtab inst (n + 1) }
        if opts.invalid || opts.all then
          if INSTRUCTIONS.contains inst then st
          else { st with errcount := st.errcount + 1, out := st.out ++ [VMsg.msg (CheckMsg.invalid card)] }
        else st

/-- check-instructions.py 71-100: the loop over the files; the variables when it stops. -/
def checkFilesV (verbose : Bool) (fs : FileSystem) (fuel : Nat) (opts : CheckOpts) :
    List Str → CheckStateV → CheckStateV × Py Unit
  | [], st => (st, .ok ())
  | f :: files, st =>
    match deckCardsV verbose fs fuel f with
    | (out, .error e) => ({ st with out := st.out ++ out }, .error e)
    | (out, .ok cards) =>
      checkFilesV verbose fs fuel opts files
        (cards.foldl (checkStepV verbose opts) { st with out := st.out ++ out })

/-- check-instructions.py 57-130: `main`. The reports at the end do not depend on the option. -/
def checkInstructionsV (verbose : Bool) (fs : FileSystem) (fuel : Nat) (opts : CheckOpts)
    (args : List Str) : List (VMsg CheckMsg) × Py Unit :=
  if args.length < 1 then ([], .error .systemExit)
  else
    match checkFilesV verbose fs fuel opts args CheckStateV.init with
    | (st, .error e) => (st.out, .error e)
    | (st, .ok ()) =>
      let s : CheckState := ⟨st.errcount, st.linecount, st.instrcount, st.instrtab, []⟩
      if opts.count then
        match freqLinesRun opts s.instrcount
            (if opts.sort then freqtab s.instrtab else byName s.instrtab) with
        | (l, .error e) =>
          (st.out ++ (.lines s.linecount :: .total s.instrcount :: l).map .msg, .error e)
        | (l, .ok ()) =>
          (st.out ++ (.lines s.linecount :: .total s.instrcount :: l ++ checkTail opts s).map .msg,
            .ok ())
      else (st.out ++ (checkTail opts s).map .msg, .ok ())

/-! ### list-instructions.py -/

/-- list-instructions.py 44-62: one card: what is printed. -/
def listStepV (verbose details : Bool) (opcode : Str) (card : CodeCard) : List (VMsg Str) :=
  match card.operation with
  | none => []
  | some [] => []
  | some operation =>
    if card.column8 = some (py "*") then if verbose then [.starred card] else []
    else
      let instruction := remove (strip operation) ' '
      let instruction :=
        if instruction.contains ',' && !opcode.contains ',' then splitFirst instruction ','
        else instruction
      if instruction = opcode || (hasSuffix (py ",") opcode && hasPrefix opcode instruction) then
        [.msg (listLine details card)]
      else []

/-- list-instructions.py 42-62: the loop over the files. -/
def listFilesV (verbose : Bool) (fs : FileSystem) (fuel : Nat) (details : Bool) (opcode : Str) :
    List Str → List (VMsg Str) × Py Unit
  | [] => ([], .ok ())
  | f :: files =>
    match deckCardsV verbose fs fuel f with
    | (out, .error e) => (out, .error e)
    | (out, .ok cards) =>
      match listFilesV verbose fs fuel details opcode files with
      | (l, r) => (out ++ cards.flatMap (listStepV verbose details opcode) ++ l, r)

/-- list-instructions.py 30-62: `main`. -/
def listInstructionsV (verbose : Bool) (fs : FileSystem) (fuel : Nat) (details : Bool)
    (args : List Str) : List (VMsg Str) × Py Unit :=
  match args with
  | [] => ([], .error .systemExit)
  | opcode :: files =>
    let command := if opcode.contains ',' then splitFirst opcode ',' else opcode
    if ¬ INSTRUCTIONS.contains command then ([], .error .systemExit)
    else listFilesV verbose fs fuel details opcode files

/-! ### listing.py -/

/-- listing.py 30-49: the loop over the files: the file system left behind, and what is printed. -/
def listingFilesV (verbose : Bool) (fuel : Nat) (fs : FileSystem) :
    List Str → FileSystem × List (VMsg Empty) × Py Unit
  | [] => (fs, [], .ok ())
  | filename :: rest =>
    match deckCardsV verbose fs fuel filename with
    | (out, .error e) => (fs, out, .error e)
    | (out, .ok cards) =>
      match listingFilesV verbose fuel
        (writeFile fs (listfileOf filename) (cards.flatMap deckLine)) rest with
      | (fs', out', r) =>
        (fs', out ++ (if verbose then [.wrote (listfileOf filename)] else []) ++ out', r)

/-- listing.py 25-49: `main`. -/
def listingV (verbose : Bool) (fs : FileSystem) (fuel : Nat) (args : List Str) :
    FileSystem × List (VMsg Empty) × Py Unit :=
  if args.length < 1 then (fs, [], .error .systemExit)
  else listingFilesV verbose fuel fs args

/-! ### The symbol tools and parse.py -/

/-- symbol_table.py 178-300: `buildSymbolTable` with what it prints; the variables as they are when it
stops. The loop over the cards does not use `verbose`. -/
def buildV (verbose : Bool) (upper : Str → Str) (fs : FileSystem) (fuel : Nat) (filename : Str)
    (symtab : Symtab) : List (VMsg SymMsg) × BuildState × Py Unit :=
  match deckCardsV verbose fs fuel filename with
  | (out, .error e) => (out, ⟨symtab, py "1", 0, []⟩, .error e)
  | (out, .ok cards) =>
    match buildCardsRun upper (splitFirst filename '.') cards ⟨symtab, py "1", 0, []⟩ with
    | (b, r) => (out ++ b.diags.map fun d => .msg (.diag d), b, r)

/-- check-symbols.py 35-42, find-symbols.py 63-70 (both with `announce`), list-symbols.py 30-36: the
loop over the files. -/
def buildFilesV (verbose : Bool) (upper : Str → Str) (fs : FileSystem) (fuel : Nat)
    (announce : Bool) : List Str → Symtab → Nat → List (VMsg SymMsg) × Symtab × Nat × Py Unit
  | [], symtab, toterrs => ([], symtab, toterrs, .ok ())
  | f :: files, symtab, toterrs =>
    match buildV verbose upper fs fuel f symtab with
    | (out, b, .error e) => (out, b.symtab, toterrs, .error e)
    | (out, b, .ok ()) =>
      match buildFilesV verbose upper fs fuel announce files b.symtab (toterrs + b.errcount) with
      | (out', r) =>
        (out ++ (if announce then [.msg (.fileErrs f b.errcount)] else []) ++ out', r)

/-- check-symbols.py 30-61: `main`; `checkSymbolTable` does not use `verbose`. -/
def checkSymbolsV (verbose : Bool) (upper : Str → Str) (extract : Str → List Str → Nat → List Str)
    (fs : FileSystem) (fuel : Nat) (complex : Bool) (args : List Str) :
    List (VMsg SymMsg) × Py Unit :=
  if args.length < 1 then ([], .error .systemExit)
  else
    match buildFilesV verbose upper fs fuel true args [] 0 with
    | (out, _, _, .error e) => (out, .error e)
    | (out, symtab, toterrs, .ok ()) =>
      let errSyms := checkSymbolTable symtab complex
      (out ++ (errSyms.map SymMsg.complexOnly ++ undefinedMsgs extract symtab errSyms ++
        (if args.length > 1 then [SymMsg.total (toterrs + errSyms.length)] else [])).map .msg, .ok ())

/-- find-symbols.py 54-75: `main`; `findSymbolDef` does not use `verbose`. -/
def findSymbolsV (verbose : Bool) (upper : Str → Str) (extract : Str → List Str → Nat → List Str)
    (fs : FileSystem) (fuel : Nat) (begin end_ fuzzy exact : Bool) (args : List Str) :
    List (VMsg SymMsg) × Py Unit :=
  if (begin && exact) || (end_ && exact) || (begin && end_) ||
      (fuzzy && (begin || end_ || exact)) then ([], .error .systemExit)
  else
    match args with
    | [] => ([], .error .systemExit)
    | [_] => ([], .error .systemExit)
    | symbol :: files =>
      match buildFilesV verbose upper fs fuel true files [] 0 with
      | (out, _, _, .error e) => (out, .error e)
      | (out, symtab, _, .ok ()) =>
        match findSymbolDef extract symtab symbol none begin end_ fuzzy with
        | (r, n) =>
          (out ++ (List.replicate n (.undefined symbol) ++
            (match r with
            | .nothing => []
            | .names [] => []
            | .defs [] => []
            | r => [.found r])).map .msg, .ok ())

/-- list-symbols.py 25-54: `main`. -/
def listSymbolsV (verbose : Bool) (upper : Str → Str) (fs : FileSystem) (fuel : Nat)
    (args : List Str) : List (VMsg SymMsg) × Py Unit :=
  if args.length < 1 then ([], .error .systemExit)
  else
    match buildFilesV verbose upper fs fuel false args [] 0 with
    | (out, _, _, .error e) => (out, .error e)
    | (out, symtab, errors, .ok ()) =>
      match tableLines symtab with
      | .error e => (out, .error e)
      | .ok l =>
        (out ++ (l.map SymMsg.listing ++
          (if errors > 0 then [SymMsg.listing (.errors errors)] else [])).map .msg, .ok ())

/-- What parse.py prints: as the symbol tools, or as check-instructions.py. -/
abbrev ParseMsg := SymMsg ⊕ CheckMsg

/-- A message of the symbol table as one of parse.py. -/
def VMsg.inl : VMsg SymMsg → VMsg ParseMsg
  | .reading f => .reading f
  | .meta_ f n => .meta_ f n
  | .starred c => .starred c
  | .wrote f => .wrote f
  | .msg m => .msg (.inl m)

/-- parse.py 55-74: one card; the variables `linecount`, `errcount` and what is printed. -/
def parseStepV (verbose debug : Bool) (st : Nat × Nat × List (VMsg ParseMsg)) (card : CodeCard) :
    Nat × Nat × List (VMsg ParseMsg) :=
  match st with
  | (linecount, errcount, out) =>
    match card.instruction with
    | none => (linecount + 1, errcount, out)
    | some [] => (linecount + 1, errcount, out)
    | some (x :: xs) =>
      let out := if debug then out ++ [.msg (.inr (.card card))] else out
      if card.column8 = some (py "*") then
        (linecount + 1, errcount, if verbose then out ++ [.starred card] else out)
      else if ¬ INSTRUCTIONS.contains (x :: xs) then
        (linecount + 1, errcount + 1, out ++ [.msg (.inr (.invalid card))])
      else (linecount + 1, errcount, out)

/-- parse.py 52-74: the loop over the decks. -/
def parseDecksV (verbose : Bool) (fs : FileSystem) (fuel : Nat) (debug : Bool) :
    List Str → Nat × Nat × List (VMsg ParseMsg) → (Nat × Nat × List (VMsg ParseMsg)) × Py Unit
  | [], st => (st, .ok ())
  | f :: files, (linecount, errcount, out) =>
    match deckCardsV verbose fs fuel f with
    | (out', .error e) => ((linecount, errcount, out ++ out'), .error e)
    | (out', .ok cards) =>
      parseDecksV verbose fs fuel debug files
        (cards.foldl (parseStepV verbose debug) (linecount, errcount, out ++ out'))

/-- parse.py 46-50: the loop building the symbol table; `errcount` is overwritten. -/
def parseSymbolsV (verbose : Bool) (upper : Str → Str) (fs : FileSystem) (fuel : Nat) :
    List Str → Symtab → Nat → List (VMsg SymMsg) × Nat × Py Unit
  | [], _, errcount => ([], errcount, .ok ())
  | f :: files, symtab, errcount =>
    match buildV verbose upper fs fuel f symtab with
    | (out, _, .error e) => (out, errcount, .error e)
    | (out, b, .ok ()) =>
      match parseSymbolsV verbose upper fs fuel files b.symtab b.errcount with
      | (out', r) => (out ++ [.msg (.fileErrs f b.errcount)] ++ out', r)

/-- parse.py 32-81: `main`. -/
def parseV (verbose : Bool) (upper : Str → Str) (fs : FileSystem) (fuel : Nat) (debug : Bool)
    (args : List Str) : List (VMsg ParseMsg) × Py Unit :=
  if args.length < 1 then ([], .error .systemExit)
  else
    match parseSymbolsV verbose upper fs fuel args [] 0 with
    | (out, _, .error e) => (out.map VMsg.inl, .error e)
    | (out, errcount, .ok ()) =>
      match parseDecksV verbose fs fuel debug args (0, errcount, []) with
      | ((_, _, out'), .error e) => (out.map VMsg.inl ++ out', .error e)
      | ((linecount, errcount, out'), .ok ()) =>
        (out.map VMsg.inl ++ out' ++
          [.msg (.inr (.lines linecount)), .msg (.inr (.errors errcount))], .ok ())

end H800
