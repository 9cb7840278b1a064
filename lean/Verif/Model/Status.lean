import Verif.Model.Options

/-!
The exit statuses of the tools. `parser.error` of `optparse` exits with status 2, so that the
`sys.exit(1)` after it in the tools is never reached. `sys.exit` with a text, as called when a source
is read (h800/punchcard.py 133, 188, 203), and an exception that is not caught give status 1; a
`main` that returns gives 0. No tool exits in another way.
-/

namespace H800

/-- `OptionParser.print_help` followed by `exit()` gives 0, `OptionParser.error` gives 2. -/
def OptExit.status : OptExit → Nat
  | .help => 0
  | .noSuch _ => 2
  | .ambiguous _ => 2
  | .noValue _ => 2

/-- The status after `main`, if it does not call `parser.error`. -/
def exitStatus {α : Type} : Py α → Nat
  | .ok _ => 0
  | .error _ => 1

/-- check-instructions.py 20-130: `main` calls `parser.error` if there is no argument (58-59). -/
def checkInstructionsStatus (fs : FileSystem) (fuel : Nat) (argv : List Str) : Nat :=
  match parseArgs CHECK_INSTRUCTIONS_OPTS argv with
  | .error e => e.status
  | .ok (_, args) =>
    if args.length < 1 then 2 else exitStatus (checkInstructionsCmd fs fuel argv).2

/-- list-instructions.py 18-62: `main` calls `parser.error` if there is no argument (31-32) or the
opcode up to its first comma is not an instruction (35-40). -/
def listInstructionsStatus (fs : FileSystem) (fuel : Nat) (argv : List Str) : Nat :=
  match parseArgs LIST_INSTRUCTIONS_OPTS argv with
  | .error e => e.status
  | .ok (_, []) => 2
  | .ok (_, opcode :: _) =>
    if INSTRUCTIONS.contains (if opcode.contains ',' then splitFirst opcode ',' else opcode) then
      exitStatus (listInstructionsCmd fs fuel argv).2
    else 2

/-- listing.py 18-49: `main` calls `parser.error` if there is no argument (26-27). -/
def listingStatus (fs : FileSystem) (fuel : Nat) (argv : List Str) : Nat :=
  match parseArgs VERBOSE_OPTS argv with
  | .error e => e.status
  | .ok (_, args) => if args.length < 1 then 2 else exitStatus (listingCmd fs fuel argv).2.2

/-- check-symbols.py 18-61: `main` calls `parser.error` if there is no argument (31-32). -/
def checkSymbolsStatus (upper : Str → Str) (extract : Str → List Str → Nat → List Str)
    (fs : FileSystem) (fuel : Nat) (argv : List Str) : Nat :=
  match parseArgs CHECK_SYMBOLS_OPTS argv with
  | .error e => e.status
  | .ok (_, args) =>
    if args.length < 1 then 2 else exitStatus (checkSymbolsCmd upper extract fs fuel argv).2

/-- find-symbols.py 20-75: `main` calls `parser.error` if options exclude each other (55-58) or there
are less than two arguments (59-60). -/
def findSymbolsStatus (upper : Str → Str) (extract : Str → List Str → Nat → List Str)
    (fs : FileSystem) (fuel : Nat) (argv : List Str) : Nat :=
  match parseArgs FIND_SYMBOLS_OPTS argv with
  | .error e => e.status
  | .ok (v, args) =>
    let begin := optValue v (py "begin")
    let end_ := optValue v (py "end")
    let fuzzy := optValue v (py "fuzzy")
    let exact_ := optValue v (py "exact")
    if (begin && exact_) || (end_ && exact_) || (begin && end_) ||
        (fuzzy && (begin || end_ || exact_)) then 2
    else if args.length < 2 then 2
    else exitStatus (findSymbolsCmd upper extract fs fuel argv).2

/-- list-symbols.py 18-54: `main` calls `parser.error` if there is no argument (26-27). -/
def listSymbolsStatus (upper : Str → Str) (fs : FileSystem) (fuel : Nat) (argv : List Str) : Nat :=
  match parseArgs VERBOSE_OPTS argv with
  | .error e => e.status
  | .ok (_, args) => if args.length < 1 then 2 else exitStatus (listSymbolsCmd upper fs fuel argv).2

/-- parse.py 20-81: `main` calls `parser.error` if there is no argument (33-34). -/
def parseStatus (upper : Str → Str) (fs : FileSystem) (fuel : Nat) (argv : List Str) : Nat :=
  match parseArgs PARSE_OPTS argv with
  | .error e => e.status
  | .ok (_, args) => if args.length < 1 then 2 else exitStatus (parseCmd upper fs fuel argv).2

/-- genlines.py 26-76: whenever `main` exits it calls `parser.error` (30, 38, 42, 50). -/
def genlinesStatus (argv : List Str) : Nat :=
  match parseArgs NO_OPTS argv with
  | .error e => e.status
  | .ok (_, args) =>
    match genlines args with
    | .error .systemExit => 2
    | r => exitStatus r

/-- genpages.py 19-79: whenever `main` exits it calls `parser.error` (23, 29, 58, 62). The deck is made
from a list of lines, so that no file is read and making it does not exit (h800/punchcard.py 133, 188
and 203 are not reached). -/
def genpagesStatus (fs : FileSystem) (fuel : Nat) (argv : List Str) : Nat :=
  match parseArgs NO_OPTS argv with
  | .error e => e.status
  | .ok (_, args) =>
    match (genpages fs fuel args).2 with
    | .error .systemExit => 2
    | r => exitStatus r

end H800
