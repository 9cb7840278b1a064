import Verif.Model.Verbose
import Verif.Model.Gen

/-!
Command lines: the part of Python's `optparse` that the tools use, with the options of each tool, and
the `main` of each tool on the arguments of the command line (`sys.argv[1:]`).

All options of the tools have the action `store_true` with the default False, except `-h`/`--help`,
which `OptionParser` adds itself. So no option takes a value. The methods of `OptionParser` cited are
those of Python's `Lib/optparse.py`, which is not part of the repository. The text printed for help
is in Model/Help, and the texts for errors are in Model/LastWords; both end with SystemExit.
-/

namespace H800

/-- One option of an `OptionParser`: `-c`, `--long`, and the attribute it sets; `none` for the action
`help`. -/
structure Opt where
  /-- `-c` -/
  short : Str
  /-- `--long` -/
  long : Str
  /-- `dest`, or `none` for help -/
  dest : Option Str
  deriving DecidableEq, Repr

/-- Why `parse_args` exits. -/
inductive OptExit where
  /-- `-h`: help is printed, exit status 0 -/
  | help
  /-- `BadOptionError`: `no such option: %s`, exit status 2 -/
  | noSuch (opt : Str)
  /-- `AmbiguousOptionError`, exit status 2 -/
  | ambiguous (opt : Str)
  /-- `%s option does not take a value`, exit status 2 -/
  | noValue (opt : Str)
  deriving DecidableEq, Repr

/-- `OptionParser._add_help_option`. -/
def HELP_OPTION : Opt := ⟨py "-h", py "--help", none⟩

/-- `Option.process`: `store_true` sets the attribute, `help` exits. -/
def Opt.process (o : Opt) (values : Dict Str Bool) : Except OptExit (Dict Str Bool) :=
  match o.dest with
  | none => .error .help
  | some d => .ok (dset values d true)

/-- `optparse._match_abbrev`. -/
def matchAbbrev (s : Str) (words : List Str) : Except OptExit Str :=
  if words.contains s then .ok s
  else
    match words.filter (hasPrefix s) with
    | [] => .error (.noSuch s)
    | [word] => .ok word
    | _ => .error (.ambiguous s)

/-- `OptionParser._process_long_opt` for options without values. `_long_opt[opt]` cannot fail, as `opt`
is one of its keys. -/
def processLong (opts : List Opt) (arg : Str) (values : Dict Str Bool) :
    Except OptExit (Dict Str Bool) :=
  let opt := if arg.contains '=' then splitFirst arg '=' else arg
  match matchAbbrev opt (opts.map (·.long)) with
  | .error e => .error e
  | .ok opt =>
    match opts.find? (fun o => o.long = opt) with
    | none => .error (.noSuch opt)
    | some o => if arg.contains '=' then .error (.noValue opt) else o.process values

/-- `OptionParser._process_short_opts` for options without values: the letters after the dash. -/
def processShort (opts : List Opt) : Str → Dict Str Bool → Except OptExit (Dict Str Bool)
  | [], values => .ok values
  | ch :: rest, values =>
    match opts.find? (fun o => o.short = ['-', ch]) with
    | none => .error (.noSuch ['-', ch])
    | some o =>
      match o.process values with
      | .error e => .error e
      | .ok values => processShort opts rest values

/-- `OptionParser._process_args`: `largs` are the arguments so far. -/
def processArgs (opts : List Opt) :
    List Str → List Str → Dict Str Bool → Except OptExit (Dict Str Bool × List Str)
  | [], largs, values => .ok (values, largs)
  | arg :: rest, largs, values =>
    if arg = py "--" then .ok (values, largs ++ rest)
    else if hasPrefix (py "--") arg then
      match processLong opts arg values with
      | .error e => .error e
      | .ok values => processArgs opts rest largs values
    else if hasPrefix (py "-") arg && decide (arg.length > 1) then
      match processShort opts (arg.drop 1) values with
      | .error e => .error e
      | .ok values => processArgs opts rest largs values
    else processArgs opts rest (largs ++ [arg]) values

/-- `OptionParser.get_default_values`: all attributes are False. -/
def defaultValues (opts : List Opt) : Dict Str Bool :=
  opts.filterMap fun o => o.dest.map fun d => (d, false)

/-- `OptionParser.parse_args`. -/
def parseArgs (opts : List Opt) (argv : List Str) : Except OptExit (Dict Str Bool × List Str) :=
  processArgs opts argv [] (defaultValues opts)

/-- The attribute of an option in the values; every attribute read by the tools exists. -/
def optValue (values : Dict Str Bool) (dest : Str) : Bool :=
  match dget values dest with
  | some b => b
  | none => false

/-! ### The options of the tools -/

/-- check-instructions.py 21-56. -/
def CHECK_INSTRUCTIONS_OPTS : List Opt :=
  [HELP_OPTION, ⟨py "-a", py "--all", some (py "all")⟩, ⟨py "-c", py "--count", some (py "count")⟩,
   ⟨py "-i", py "--invalid", some (py "invalid")⟩,
   ⟨py "-p", py "--print-opcodes", some (py "printOpcodes")⟩,
   ⟨py "-s", py "--sort", some (py "sort")⟩, ⟨py "-u", py "--unused", some (py "unused")⟩,
   ⟨py "-v", py "--verbose", some (py "verbose")⟩]

/-- check-symbols.py 19-29. -/
def CHECK_SYMBOLS_OPTS : List Opt :=
  [HELP_OPTION, ⟨py "-v", py "--verbose", some (py "verbose")⟩,
   ⟨py "-c", py "--complex", some (py "complex")⟩]

/-- find-symbols.py 21-53. -/
def FIND_SYMBOLS_OPTS : List Opt :=
  [HELP_OPTION, ⟨py "-b", py "--begin", some (py "begin")⟩,
   ⟨py "-D", py "--details", some (py "details")⟩, ⟨py "-e", py "--end", some (py "end")⟩,
   ⟨py "-f", py "--fuzzy", some (py "fuzzy")⟩, ⟨py "-v", py "--verbose", some (py "verbose")⟩,
   ⟨py "-x", py "--exact", some (py "exact")⟩]

/-- list-instructions.py 19-29. -/
def LIST_INSTRUCTIONS_OPTS : List Opt :=
  [HELP_OPTION, ⟨py "-D", py "--details", some (py "details")⟩,
   ⟨py "-v", py "--verbose", some (py "verbose")⟩]

/-- list-symbols.py 19-24 and listing.py 19-24. -/
def VERBOSE_OPTS : List Opt := [HELP_OPTION, ⟨py "-v", py "--verbose", some (py "verbose")⟩]

/-- parse.py 21-31. -/
def PARSE_OPTS : List Opt :=
  [HELP_OPTION, ⟨py "-d", py "--debug", some (py "debug")⟩,
   ⟨py "-v", py "--verbose", some (py "verbose")⟩]

/-- genlines.py 27 and genpages.py 20: no options of their own. -/
def NO_OPTS : List Opt := [HELP_OPTION]

/-! ### The tools on command lines -/

/-- check-instructions.py 20-130: `main`. -/
def checkInstructionsCmd (fs : FileSystem) (fuel : Nat) (argv : List Str) :
    List (VMsg CheckMsg) × Py Unit :=
  match parseArgs CHECK_INSTRUCTIONS_OPTS argv with
  | .error _ => ([], .error .systemExit)
  | .ok (v, args) =>
    checkInstructionsV (optValue v (py "verbose")) fs fuel
      ⟨optValue v (py "all"), optValue v (py "count"), optValue v (py "invalid"),
       optValue v (py "printOpcodes"), optValue v (py "sort"), optValue v (py "unused")⟩ args

/-- list-instructions.py 18-62: `main`. -/
def listInstructionsCmd (fs : FileSystem) (fuel : Nat) (argv : List Str) :
    List (VMsg Str) × Py Unit :=
  match parseArgs LIST_INSTRUCTIONS_OPTS argv with
  | .error _ => ([], .error .systemExit)
  | .ok (v, args) =>
    listInstructionsV (optValue v (py "verbose")) fs fuel (optValue v (py "details")) args

/-- listing.py 18-49: `main`. -/
def listingCmd (fs : FileSystem) (fuel : Nat) (argv : List Str) :
    FileSystem × List (VMsg Empty) × Py Unit :=
  match parseArgs VERBOSE_OPTS argv with
  | .error _ => (fs, [], .error .systemExit)
  | .ok (v, args) => listingV (optValue v (py "verbose")) fs fuel args

/-- check-symbols.py 18-61: `main`. -/
def checkSymbolsCmd (upper : Str → Str) (extract : Str → List Str → Nat → List Str)
    (fs : FileSystem) (fuel : Nat) (argv : List Str) : List (VMsg SymMsg) × Py Unit :=
  match parseArgs CHECK_SYMBOLS_OPTS argv with
  | .error _ => ([], .error .systemExit)
  | .ok (v, args) =>
    checkSymbolsV (optValue v (py "verbose")) upper extract fs fuel (optValue v (py "complex")) args

/-- find-symbols.py 20-75: `main`. `opts.details` is not read. -/
def findSymbolsCmd (upper : Str → Str) (extract : Str → List Str → Nat → List Str)
    (fs : FileSystem) (fuel : Nat) (argv : List Str) : List (VMsg SymMsg) × Py Unit :=
  match parseArgs FIND_SYMBOLS_OPTS argv with
  | .error _ => ([], .error .systemExit)
  | .ok (v, args) =>
    findSymbolsV (optValue v (py "verbose")) upper extract fs fuel (optValue v (py "begin"))
      (optValue v (py "end")) (optValue v (py "fuzzy")) (optValue v (py "exact")) args

/-- list-symbols.py 18-54: `main`. -/
def listSymbolsCmd (upper : Str → Str) (fs : FileSystem) (fuel : Nat) (argv : List Str) :
    List (VMsg SymMsg) × Py Unit :=
  match parseArgs VERBOSE_OPTS argv with
  | .error _ => ([], .error .systemExit)
  | .ok (v, args) => listSymbolsV (optValue v (py "verbose")) upper fs fuel args

/-- parse.py 20-81: `main`. -/
def parseCmd (upper : Str → Str) (fs : FileSystem) (fuel : Nat) (argv : List Str) :
    List (VMsg ParseMsg) × Py Unit :=
  match parseArgs PARSE_OPTS argv with
  | .error _ => ([], .error .systemExit)
  | .ok (v, args) =>
    parseV (optValue v (py "verbose")) upper fs fuel (optValue v (py "debug")) args

/-- genlines.py 26-76: `main`. -/
def genlinesCmd (argv : List Str) : Py (List Str) :=
  match parseArgs NO_OPTS argv with
  | .error _ => .error .systemExit
  | .ok (_, args) => genlines args

/-- genpages.py 19-79: `main`. -/
def genpagesCmd (fs : FileSystem) (fuel : Nat) (argv : List Str) : FileSystem × Py Unit :=
  match parseArgs NO_OPTS argv with
  | .error _ => (fs, .error .systemExit)
  | .ok (_, args) => genpages fs fuel args

end H800
