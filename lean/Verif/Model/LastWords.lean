import Verif.Model.Status
import Verif.Model.Trace
import Verif.Model.Repr

/-!
What a tool writes on the standard error stream when it ends itself: the text given to `sys.exit`
(h800/punchcard.py 188, 203) with a newline, or what `OptionParser.error` of `optparse` writes. `none` is
a tool that ends otherwise: by returning from `main`, with a printed help, or with an exception, whose
traceback is not modelled. `prog` is the name of the script (`os.path.basename(sys.argv[0])`).
-/

namespace H800

namespace Deck

/-- punchcard.py 194-219: the loop of `_readSource` as to how it ends: `.ok` if all lines are read,
`.error (some text)` for `sys.exit(text)`, `.error none` for an exception. -/
def readLoopExit (fs : FileSystem) (cls : CardClass) (width : Int) (fields : List Int)
    (read : Str → Except (Option Str) Unit) (filename : Str) :
    Nat → List Str → Except (Option Str) Unit
  | _, [] => .ok ()
  | i, line :: rest =>
    if startsWith line '#' then readLoopExit fs cls width fields read filename (i + 1) rest
    else if startsWith line '$' then
      match firstWord (line.drop 1) with
      | .error _ => .error none
      | .ok inc =>
        if (fs inc).isNone then .error (some (py "File \"" ++ inc ++ py "\" does not exist"))
        else
          match read inc with
          | .error e => .error e
          | .ok _ => readLoopExit fs cls width fields read filename (i + 1) rest
    else
      match cls line width fields (some filename) (i + 1) with
      | .error _ => .error none
      | .ok _ => readLoopExit fs cls width fields read filename (i + 1) rest

/-- punchcard.py 183-219: `_readSource` as to how it ends. -/
def readSourceExit (fs : FileSystem) (cls : CardClass) (width : Int) (fields : List Int) :
    Nat → Str → Except (Option Str) Unit
  | 0, _ => .error none
  | fuel + 1, filename =>
    match fs filename with
    | none => .error (some (py "ERROR: File \"" ++ filename ++ py "\" does not exist!"))
    | some text =>
      readLoopExit fs cls width fields (readSourceExit fs cls width fields fuel) filename 0
        (readlines text)

end Deck

/-- `Deck(file=filename)` (punchcard.py 126-155): the text given to `sys.exit`, if it is called. -/
def deckExit (fs : FileSystem) (fuel : Nat) (filename : Str) : Option Str :=
  if filename = [] then none
  else
    match Deck.readSourceExit fs argusClass DEFAULT_WIDTH DEFAULT_FIELDS fuel filename with
    | .error t => t
    | .ok _ => none

/-- The loop over the files of check-instructions.py (71-100) and list-instructions.py (45-62). -/
def filesExit (fs : FileSystem) (fuel : Nat) : List Str → Option Str
  | [] => none
  | f :: files =>
    match deckCards fs fuel f with
    | .error _ => deckExit fs fuel f
    | .ok _ => filesExit fs fuel files

/-- listing.py 30-49: the loop over the files, which writes the listings. -/
def listingExit (fuel : Nat) (fs : FileSystem) : List Str → Option Str
  | [] => none
  | f :: files =>
    match deckCards fs fuel f with
    | .error _ => deckExit fs fuel f
    | .ok cards => listingExit fuel (writeFile fs (listfileOf f) (cards.flatMap deckLine)) files

/-- The loop over the files of check-symbols.py (35-42), list-symbols.py (30-36), find-symbols.py (63-70)
and the first one of parse.py (46-50). -/
def symFilesExit (upper : Str → Str) (fs : FileSystem) (fuel : Nat) : List Str → Symtab → Option Str
  | [], _ => none
  | f :: files, symtab =>
    match buildSymbolTable upper fs fuel f symtab with
    | .error _ => deckExit fs fuel f
    | .ok b => symFilesExit upper fs fuel files b.symtab

/-! ### optparse -/

/-- `s.replace(old, new)` for a non-empty `old`; `k` characters of an occurrence are left to be
skipped. -/
def replaceAux (old new : Str) : Nat → Str → Str
  | _, [] => []
  | k + 1, _ :: s => replaceAux old new k s
  | 0, c :: s =>
    if hasPrefix old (c :: s) then new ++ replaceAux old new (old.length - 1) s
    else c :: replaceAux old new 0 s

/-- `OptionParser.set_usage` (for a usage in lower case), `expand_prog_name`, `format_usage` and
`print_usage`. -/
def usageText (prog usage : Str) : Str :=
  let usage := if hasPrefix (py "usage: ") usage then usage.drop 7 else usage
  py "Usage: " ++ replaceAux (py "%prog") prog 0 usage ++ py "\n" ++ py "\n"

/-- `OptionParser.error`: the usage, and the error after the name of the program. -/
def errorText (prog usage msg : Str) : Str :=
  usageText prog usage ++ prog ++ py ": error: " ++ msg ++ py "\n"

/-- `str` of the errors of `optparse`; `none` for help, which is printed on the standard output. -/
def OptExit.message (opts : List Opt) : OptExit → Option Str
  | .help => none
  | .noSuch opt => some (py "no such option: " ++ opt)
  | .ambiguous opt =>
    some (py "ambiguous option: " ++ opt ++ py " (" ++
      joinText (py ", ") (pySortedStr ((opts.map (·.long)).filter (hasPrefix opt))) ++ py "?)")
  | .noValue opt => some (opt ++ py " option does not take a value")

/-- `OptionParser.parse_args`: what is written when it exits. -/
def optExitText (prog usage : Str) (opts : List Opt) (e : OptExit) : Option Str :=
  (e.message opts).map (errorText prog usage)

/-- `sys.exit(text)` writes the text and a newline. -/
def sysExitText (t : Str) : Str := t ++ py "\n"

/-! ### The tools -/

/-- check-instructions.py 21, check-symbols.py 19, list-symbols.py 19, listing.py 19, parse.py 21. -/
def FILES_USAGE : Str := py "usage: %prog filename [filename]..."

/-- find-symbols.py 21-22. -/
def FIND_USAGE : Str := py "usage: %prog [options] symbol filename [filename]..."

/-- list-instructions.py 19. -/
def LIST_USAGE : Str := py "usage: %prog opcode filename [filename]..."

/-- genlines.py 27. -/
def GENLINES_USAGE : Str := py "usage: %prog start end [step] [startcol] [endcol]"

/-- genpages.py 20. -/
def GENPAGES_USAGE : Str := py "usage: %prog filename"

/-- check-instructions.py 57-130. -/
def checkInstructionsExit (prog : Str) (fs : FileSystem) (fuel : Nat) (argv : List Str) :
    Option Str :=
  match parseArgs CHECK_INSTRUCTIONS_OPTS argv with
  | .error e => optExitText prog FILES_USAGE CHECK_INSTRUCTIONS_OPTS e
  | .ok (_, args) =>
    if args.length < 1 then some (errorText prog FILES_USAGE (py "usage: %prog filename"))
    else (filesExit fs fuel args).map sysExitText

/-- list-instructions.py 30-62. -/
def listInstructionsExit (prog : Str) (fs : FileSystem) (fuel : Nat) (argv : List Str) :
    Option Str :=
  match parseArgs LIST_INSTRUCTIONS_OPTS argv with
  | .error e => optExitText prog LIST_USAGE LIST_INSTRUCTIONS_OPTS e
  | .ok (_, []) => some (errorText prog LIST_USAGE (py "usage: %prog filename [filename]..."))
  | .ok (_, opcode :: files) =>
    let command := if opcode.contains ',' then splitFirst opcode ',' else opcode
    if ¬ INSTRUCTIONS.contains command then
      some (errorText prog LIST_USAGE (py "ERROR: invalid opcode \"" ++ opcode ++ py "\""))
    else (filesExit fs fuel files).map sysExitText

/-- listing.py 25-49. -/
def listingExitText (prog : Str) (fs : FileSystem) (fuel : Nat) (argv : List Str) : Option Str :=
  match parseArgs VERBOSE_OPTS argv with
  | .error e => optExitText prog FILES_USAGE VERBOSE_OPTS e
  | .ok (_, args) =>
    if args.length < 1 then some (errorText prog FILES_USAGE (py "usage: %prog filename"))
    else (listingExit fuel fs args).map sysExitText

/-- check-symbols.py 30-61. -/
def checkSymbolsExit (prog : Str) (upper : Str → Str) (fs : FileSystem) (fuel : Nat)
    (argv : List Str) : Option Str :=
  match parseArgs CHECK_SYMBOLS_OPTS argv with
  | .error e => optExitText prog FILES_USAGE CHECK_SYMBOLS_OPTS e
  | .ok (_, args) =>
    if args.length < 1 then some (errorText prog FILES_USAGE (py "usage: %prog filename"))
    else (symFilesExit upper fs fuel args []).map sysExitText

/-- list-symbols.py 25-54. -/
def listSymbolsExit (prog : Str) (upper : Str → Str) (fs : FileSystem) (fuel : Nat)
    (argv : List Str) : Option Str :=
  match parseArgs VERBOSE_OPTS argv with
  | .error e => optExitText prog FILES_USAGE VERBOSE_OPTS e
  | .ok (_, args) =>
    if args.length < 1 then some (errorText prog FILES_USAGE (py "usage: %prog filename"))
    else (symFilesExit upper fs fuel args []).map sysExitText

/-- find-symbols.py 54-75. -/
def findSymbolsExit (prog : Str) (upper : Str → Str) (fs : FileSystem) (fuel : Nat)
    (argv : List Str) : Option Str :=
  match parseArgs FIND_SYMBOLS_OPTS argv with
  | .error e => optExitText prog FIND_USAGE FIND_SYMBOLS_OPTS e
  | .ok (v, args) =>
    let begin := optValue v (py "begin")
    let end_ := optValue v (py "end")
    let fuzzy := optValue v (py "fuzzy")
    let exact_ := optValue v (py "exact")
    if (begin && exact_) || (end_ && exact_) || (begin && end_) ||
        (fuzzy && (begin || end_ || exact_)) then
      some (errorText prog FIND_USAGE (py "Conflicting options!"))
    else if args.length < 2 then
      some (errorText prog FIND_USAGE (py "usage: %prog [options] symbol filename [filename]..."))
    else (symFilesExit upper fs fuel (args.drop 1) []).map sysExitText

/-- parse.py 32-81. The second loop reads the files again. -/
def parseExit (prog : Str) (upper : Str → Str) (fs : FileSystem) (fuel : Nat) (argv : List Str) :
    Option Str :=
  match parseArgs PARSE_OPTS argv with
  | .error e => optExitText prog FILES_USAGE PARSE_OPTS e
  | .ok (_, args) =>
    if args.length < 1 then some (errorText prog FILES_USAGE (py "usage: %prog filename"))
    else
      match parseSymbolsRun upper fs fuel args [] 0 [] with
      | (_, _, .error _) => (symFilesExit upper fs fuel args []).map sysExitText
      | (_, _, .ok ()) => (filesExit fs fuel args).map sysExitText

/-- genlines.py 28-51. -/
def genlinesExit (prog : Str) (argv : List Str) : Option Str :=
  match parseArgs NO_OPTS argv with
  | .error e => optExitText prog GENLINES_USAGE NO_OPTS e
  | .ok (_, a0 :: a1 :: _) =>
    let msg := errorText prog GENLINES_USAGE (py "Number of digits cannot be greater than 6!")
    if a0.length > 6 then some msg
    else if a1.length > 6 then some msg
    else
      match pyInt a0 with
      | .error _ => none
      | .ok _ =>
        match pyInt a1 with
        | .error _ => none
        | .ok end_ => if (pyStr end_).length > 6 then some msg else none
  | .ok (_, _) =>
    some (errorText prog GENLINES_USAGE (py "Start and End numbers must be supplied!"))

/-- genpages.py 21-63. -/
def genpagesExit (prog : Str) (fs : FileSystem) (fuel : Nat) (argv : List Str) : Option Str :=
  match parseArgs NO_OPTS argv with
  | .error e => optExitText prog GENPAGES_USAGE NO_OPTS e
  | .ok (_, []) => some (errorText prog GENPAGES_USAGE (py "usage: %prog filename"))
  | .ok (_, filename :: _) =>
    match fs filename with
    | none =>
      some (errorText prog GENPAGES_USAGE (py "Filename " ++ filename ++ py " does not exist!"))
    | some text =>
      match pagesInfo fs fuel (readlines text) with
      | .error _ => none
      | .ok st =>
        match st.section_, st.pages with
        | none, _ => some (errorText prog GENPAGES_USAGE (py "Cannot determine log section!"))
        | some _, none => none
        | some _, some (start, end_) =>
          if start > end_ then some (errorText prog GENPAGES_USAGE (py "Invalid page numbers!"))
          else none

end H800
