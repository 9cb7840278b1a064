import Verif.Model.Tools

/-!
Files that change while a tool reads them. The tools look at the disk more than once: `_readSource` asks
whether a file exists, then opens it, asks for each include line whether the file named exists, and asks
again and opens it in the recursive call; parse.py does all this twice. Each access has its number, and
the disk may be another one at each.

Simplifications: opening a file and reading its lines (punchcard.py 190-193) is one access, so the text of
a file is what it is at one moment; `verbose` is left out, as in `Model/Tools`; `_readSource` is called
with `recurse=True` only, as by all tools.
-/

namespace H800

/-- The disk at each access. -/
abbrev World := Nat → FileSystem

namespace Deck

/-- punchcard.py 194-219: the loop of `_readSource` over the lines of one file, when `t` accesses have
been made; line 202 is the access in it. The number of accesses made at the end, and the cards. -/
def readLoopT (w : World) (cls : CardClass) (width : Int) (fields : List Int)
    (read : Nat → Str → Nat × Py (List PunchCard)) (filename : Str) :
    Nat → Nat → List Str → Nat × Py (List PunchCard)
  | _, t, [] => (t, .ok [])
  | i, t, line :: rest =>
    if startsWith line '#' then readLoopT w cls width fields read filename (i + 1) t rest
    else if startsWith line '$' then
      match firstWord (line.drop 1) with
      | .error e => (t, .error e)
      | .ok inc =>
        if (w t inc).isNone then (t + 1, .error .systemExit)
        else
          match read (t + 1) inc with
          | (t', .error e) => (t', .error e)
          | (t', .ok icards) =>
            match readLoopT w cls width fields read filename (i + 1) t' rest with
            | (t'', .error e) => (t'', .error e)
            | (t'', .ok cards) => (t'', .ok (icards ++ cards))
    else
      match cls line width fields (some filename) (i + 1) with
      | .error e => (t, .error e)
      | .ok c =>
        match readLoopT w cls width fields read filename (i + 1) t rest with
        | (t', .error e) => (t', .error e)
        | (t', .ok cards) => (t', .ok (c :: cards))

/-- punchcard.py 183-219: `_readSource`; lines 187 and 190 are accesses. A file that is no more there
when it is opened is FileNotFoundError. -/
def readSourceT (w : World) (cls : CardClass) (width : Int) (fields : List Int) :
    Nat → Nat → Str → Nat × Py (List PunchCard)
  | 0, t, _ => (t, .error .recursionError)
  | fuel + 1, t, filename =>
    if (w t filename).isNone then (t + 1, .error .systemExit)
    else
      match w (t + 1) filename with
      | none => (t + 2, .error .fileNotFound)
      | some text =>
        readLoopT w cls width fields (readSourceT w cls width fields fuel) filename 0 (t + 2)
          (readlines text)

end Deck

/-- punchcard.py 126-155, arguscard.py 121-132 and the attributes of the cards that the tools use: what is
done with the cards that have been read; no access. -/
def finishCards (cards : List PunchCard) : Py (List CodeCard) := do
  let d ← Deck.collect (cards.map (·.line)) cards
  let _ ← ArgusDeck.findLog d.cards
  d.cards.mapM codeCard

/-- `h800.arguscard.Deck(file=filename)`, as `deckCards`. -/
def deckCardsT (w : World) (fuel t : Nat) (filename : Str) : Nat × Py (List CodeCard) :=
  match filename with
  | [] => (t, .error .typeError)
  | c :: cs =>
    match Deck.readSourceT w argusClass DEFAULT_WIDTH DEFAULT_FIELDS fuel t (c :: cs) with
    | (t', .error e) => (t', .error e)
    | (t', .ok cards) => (t', finishCards cards)

/-- The loop of a tool over its files: each is read and then dealt with before the next. -/
def filesT {σ : Type} (w : World) (fuel : Nat) (step : σ → Str → List CodeCard → Py σ) :
    Nat → List Str → σ → Nat × Py σ
  | t, [], st => (t, .ok st)
  | t, f :: files, st =>
    match deckCardsT w fuel t f with
    | (t', .error e) => (t', .error e)
    | (t', .ok cards) =>
      match step st f cards with
      | .error e => (t', .error e)
      | .ok st' => filesT w fuel step t' files st'

/-- check-instructions.py 71-100: the loop over the files. -/
def checkFilesT (w : World) (fuel : Nat) (opts : CheckOpts) (files : List Str) (st : CheckState) :
    Nat × Py CheckState :=
  filesT w fuel (fun st _ cards => .ok (cards.foldl (checkStep opts) st)) 0 files st

/-- parse.py 46-50 and symbol_table.py 178-300: the loop building the symbol table. -/
def parseSymbolsT (upper : Str → Str) (w : World) (fuel t : Nat) (files : List Str) (st : ParseState) :
    Nat × Py ParseState :=
  filesT w fuel (fun st f cards => do
    let b ← buildCards upper (splitFirst f '.') ⟨st.symtab, py "1", 0, []⟩ cards
    return { st with
      symtab := b.symtab, errcount := b.errcount, fileErrs := st.fileErrs ++ [b.errcount] }) t files st

/-- parse.py 52-74: the loop over the decks. -/
def parseDecksT (w : World) (fuel t : Nat) (files : List Str) (st : ParseState) : Nat × Py ParseState :=
  filesT w fuel (fun st _ cards => .ok (cards.foldl parseStep st)) t files st

/-- parse.py 32-81: `main`. -/
def parseMainT (upper : Str → Str) (w : World) (fuel : Nat) (args : List Str) : Nat × Py ParseState :=
  if args.length < 1 then (0, .error .systemExit)
  else
    match parseSymbolsT upper w fuel 0 args ⟨0, 0, 0, [], []⟩ with
    | (t, .error e) => (t, .error e)
    | (t, .ok st) => parseDecksT w fuel t args st

/-- list-instructions.py 30-62: `main`; what has been printed when a file cannot be read is left out, as in
`listInstructions`. -/
def listInstructionsT (w : World) (fuel : Nat) (details : Bool) (args : List Str) : Nat × Py (List Str) :=
  match args with
  | [] => (0, .error .systemExit)
  | opcode :: files =>
    let command := if opcode.contains ',' then splitFirst opcode ',' else opcode
    if ¬ INSTRUCTIONS.contains command then (0, .error .systemExit)
    else
      filesT w fuel (fun out _ cards =>
        .ok (out ++ (cards.filter (listed opcode)).map (listLine details))) 0 files []

/-- check-symbols.py 37-42, find-symbols.py 65-70, list-symbols.py 33-36: as `buildAll`. -/
def buildAllT (upper : Str → Str) (w : World) (fuel : Nat) (files : List Str) :
    Nat × Py (Symtab × List Nat × Nat) :=
  filesT w fuel (fun r f cards => do
    let b ← buildCards upper (splitFirst f '.') ⟨r.1, py "1", 0, []⟩ cards
    return (b.symtab, r.2.1 ++ [b.errcount], r.2.2 + b.errcount)) 0 files ([], [], 0)

/-- check-symbols.py 30-61: `main`. -/
def checkSymbolsT (upper : Str → Str) (extract : Str → List Str → Nat → List Str) (w : World)
    (fuel : Nat) (complex : Bool) (args : List Str) : Nat × Py SymReport :=
  if args.length < 1 then (0, .error .systemExit)
  else
    match buildAllT upper w fuel args with
    | (t, .error e) => (t, .error e)
    | (t, .ok (symtab, errs, toterrs)) =>
      let errSyms := checkSymbolTable symtab complex
      (t, .ok ⟨errs,
        errSyms.map fun s => (s, matchesOf (findSymbolDef extract symtab s none false false true)),
        if args.length > 1 then some (toterrs + errSyms.length) else none⟩)

/-- find-symbols.py 54-75: `main`. -/
def findSymbolsT (upper : Str → Str) (extract : Str → List Str → Nat → List Str) (w : World)
    (fuel : Nat) (begin end_ fuzzy exact : Bool) (args : List Str) : Nat × Py (Option Found) :=
  if (begin && exact) || (end_ && exact) || (begin && end_) ||
      (fuzzy && (begin || end_ || exact)) then (0, .error .systemExit)
  else
    match args with
    | [] => (0, .error .systemExit)
    | [_] => (0, .error .systemExit)
    | symbol :: files =>
      match buildAllT upper w fuel files with
      | (t, .error e) => (t, .error e)
      | (t, .ok (symtab, _, _)) =>
        match (findSymbolDef extract symtab symbol none begin end_ fuzzy).1 with
        | .nothing => (t, .ok none)
        | .names [] => (t, .ok none)
        | .defs [] => (t, .ok none)
        | r => (t, .ok (some r))

/-- list-symbols.py 25-54: `main`. -/
def listSymbolsT (upper : Str → Str) (w : World) (fuel : Nat) (args : List Str) :
    Nat × Py (List ListLine) :=
  if args.length < 1 then (0, .error .systemExit)
  else
    match buildAllT upper w fuel args with
    | (t, .error e) => (t, .error e)
    | (t, .ok (symtab, _, errors)) =>
      match tableLines symtab with
      | .error e => (t, .error e)
      | .ok l => (t, .ok (l ++ if errors > 0 then [.errors errors] else []))

end H800
