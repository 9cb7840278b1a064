import Verif.Model.Tools

/-!
The scripts check-symbols.py, find-symbols.py and list-symbols.py again, now with all that they have
printed when they stop, also if they stop with an exception: messages, and how the script ended.
`Verif.Model.Tools` has the same scripts without the output of a failing run.
-/

namespace H800

/-- What the symbol tools print. The lines on the standard output are `matches_`, `found` and
`listing`; all others go to the standard error stream. -/
inductive SymMsg where
  /-- symbol_table.py 206-259, 292-297: an error in a line -/
  | diag (r : Diag)
  /-- check-symbols.py 41-42, find-symbols.py 69-70: `%s: %d errors encountered` -/
  | fileErrs (file : Str) (n : Nat)
  /-- symbol_table.py 317-319: a complex assignment only -/
  | complexOnly (symbol : Str)
  /-- check-symbols.py 48-49: an empty line and `Undefined symbols:` -/
  | undefinedHeader
  /-- check-symbols.py 54: `%s - No matches!` -/
  | noMatches (symbol : Str)
  /-- check-symbols.py 56: `%s - Possible matches: ` -/
  | matches_ (symbol : Str) (l : List Str)
  /-- check-symbols.py 57-58: `%d errors checking symbol table.` -/
  | checkErrs (n : Nat)
  /-- check-symbols.py 61: `Total: %d errors encountered.` -/
  | total (n : Nat)
  /-- symbol_table.py 354: `Undefined symbol` -/
  | undefined (symbol : Str)
  /-- find-symbols.py 75 -/
  | found (f : Found)
  /-- list-symbols.py 39-54 -/
  | listing (l : ListLine)

/-- symbol_table.py 185-299: the loop; the variables as they are when it stops. -/
def buildCardsRun (upper : Str → Str) (seg : Str) : List CodeCard → BuildState → BuildState × Py Unit
  | [], st => (st, .ok ())
  | c :: cards, st =>
    match buildStep upper seg st c with
    | .error e => (st, .error e)
    | .ok st => buildCardsRun upper seg cards st

/-- symbol_table.py 178-300: `buildSymbolTable`; the variables as they are when it stops. -/
def buildRun (upper : Str → Str) (fs : FileSystem) (fuel : Nat) (filename : Str) (symtab : Symtab) :
    BuildState × Py Unit :=
  match deckCards fs fuel filename with
  | .error e => (⟨symtab, py "1", 0, []⟩, .error e)
  | .ok cards => buildCardsRun upper (splitFirst filename '.') cards ⟨symtab, py "1", 0, []⟩

/-- check-symbols.py 35-42, find-symbols.py 63-70 (both with `announce`), list-symbols.py 30-36: the
loop over the files: what is printed, the table, the sum of the errors, and how it stops. -/
def buildFilesRun (upper : Str → Str) (fs : FileSystem) (fuel : Nat) (announce : Bool) :
    List Str → Symtab → Nat → List SymMsg × Symtab × Nat × Py Unit
  | [], symtab, toterrs => ([], symtab, toterrs, .ok ())
  | f :: files, symtab, toterrs =>
    match buildRun upper fs fuel f symtab with
    | (b, .error e) => (b.diags.map .diag, b.symtab, toterrs, .error e)
    | (b, .ok ()) =>
      match buildFilesRun upper fs fuel announce files b.symtab (toterrs + b.errcount) with
      | (out, r) =>
        ((b.diags.map .diag) ++
          (if announce then [.fileErrs f b.errcount] else []) ++ out, r)

/-- check-symbols.py 46-58: the report of the undefined symbols. -/
def undefinedMsgs (extract : Str → List Str → Nat → List Str) (symtab : Symtab)
    (errSyms : List Str) : List SymMsg :=
  if errSyms.length > 0 then
    .undefinedHeader :: (errSyms.map fun s =>
      match matchesOf (findSymbolDef extract symtab s none false false true) with
      | [] => .noMatches s
      | l => .matches_ s l) ++ [.checkErrs errSyms.length]
  else []

/-- check-symbols.py 30-61: `main`, with what is printed. -/
def checkSymbolsRun (upper : Str → Str) (extract : Str → List Str → Nat → List Str)
    (fs : FileSystem) (fuel : Nat) (complex : Bool) (args : List Str) : List SymMsg × Py Unit :=
  if args.length < 1 then ([], .error .systemExit)
  else
    match buildFilesRun upper fs fuel true args [] 0 with
    | (out, _, _, .error e) => (out, .error e)
    | (out, symtab, toterrs, .ok ()) =>
      let errSyms := checkSymbolTable symtab complex
      (out ++ errSyms.map .complexOnly ++ undefinedMsgs extract symtab errSyms ++
        (if args.length > 1 then [.total (toterrs + errSyms.length)] else []), .ok ())

/-- find-symbols.py 54-75: `main`, with what is printed; the error message of an exact lookup that
fails is `undefined`. -/
def findSymbolsRun (upper : Str → Str) (extract : Str → List Str → Nat → List Str)
    (fs : FileSystem) (fuel : Nat) (begin end_ fuzzy exact : Bool) (args : List Str) :
    List SymMsg × Py Unit :=
  if (begin && exact) || (end_ && exact) || (begin && end_) ||
      (fuzzy && (begin || end_ || exact)) then ([], .error .systemExit)
  else
    match args with
    | [] => ([], .error .systemExit)
    | [_] => ([], .error .systemExit)
    | symbol :: files =>
      match buildFilesRun upper fs fuel true files [] 0 with
      | (out, _, _, .error e) => (out, .error e)
      | (out, symtab, _, .ok ()) =>
        match findSymbolDef extract symtab symbol none begin end_ fuzzy with
        | (r, n) =>
          (out ++ List.replicate n (.undefined symbol) ++
            (match r with
            | .nothing => []
            | .names [] => []
            | .defs [] => []
            | r => [.found r]), .ok ())

/-- list-symbols.py 38-51, 46: print the lines of the table one by one. A table built from files has
a file name in each entry, so that no line fails; the lines are as in `tableLines`. -/
def listSymbolsRun (upper : Str → Str) (fs : FileSystem) (fuel : Nat) (args : List Str) :
    List SymMsg × Py Unit :=
  if args.length < 1 then ([], .error .systemExit)
  else
    match buildFilesRun upper fs fuel false args [] 0 with
    | (out, _, _, .error e) => (out, .error e)
    | (out, symtab, errors, .ok ()) =>
      match tableLines symtab with
      | .error e => (out, .error e)
      | .ok l =>
        (out ++ l.map .listing ++ (if errors > 0 then [.listing (.errors errors)] else []), .ok ())

end H800
