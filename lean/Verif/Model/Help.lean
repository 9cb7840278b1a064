import Verif.Model.LastWords

/-!
The help that the tools print on the standard output for `-h` and `--help`: `OptionParser.print_help` of
Python's `Lib/optparse.py`, which is not part of the repository, with the help texts of the options in
`tools/`. The width of the page is 80 columns (`COLUMNS` is not set). Then all help texts are short enough
to stand on one line (C210_fit), so that `textwrap.wrap` is not modelled.
-/

namespace H800

/-- `HelpFormatter.format_option_strings` for options without values. -/
def Opt.strings (o : Opt) : Str := o.short ++ py ", " ++ o.long

/-- `HelpFormatter.store_option_strings`: `help_position`. The options are indented by two columns, and
`max_help_position` is 24. -/
def helpPosition (opts : List Opt) : Nat :=
  min ((opts.map fun o => o.strings.length + 2).foldl max 0 + 2) 24

/-- `HelpFormatter.store_option_strings`: `help_width`, for pages of 80 columns, of which two are not
used. -/
def helpWidth (opts : List Opt) : Nat := max (78 - helpPosition opts) 11

/-- `HelpFormatter.format_option`, for a help text that is not longer than `helpWidth`. -/
def formatOption (pos : Nat) (o : Opt) (help : Str) : Str :=
  if o.strings.length > pos - 2 - 2 then
    py "  " ++ o.strings ++ py "\n" ++ List.replicate pos ' ' ++ help ++ py "\n"
  else
    py "  " ++ (o.strings ++ List.replicate (pos - 2 - 2 - o.strings.length) ' ') ++ py "  " ++
      help ++ py "\n"

/-- `OptionParser.format_help`: the usage, and the options with their help texts. -/
def helpText (prog usage : Str) (opts : List Opt) (helps : List Str) : Str :=
  usageText prog usage ++ py "Options:\n" ++
    (List.zipWith (formatOption (helpPosition opts)) opts helps).flatten

/-- What `parse_args` prints on the standard output: the help, if it is asked for before anything that is
wrong. -/
def helpPrinted (prog usage : Str) (opts : List Opt) (helps : List Str) (argv : List Str) : Option Str :=
  match parseArgs opts argv with
  | .error .help => some (helpText prog usage opts helps)
  | _ => none

/-- `OptionParser._add_help_option`. -/
def HELP_HELP : Str := py "show this help message and exit"

/-- check-instructions.py 21-56. -/
def CHECK_INSTRUCTIONS_HELPS : List Str :=
  [HELP_HELP, py "Check for all errors.", py "Print opcode frequency count.",
   py "Check for invalid opcodes.", py "Print all opcodes found.",
   py "Sort by opcode frequency (if --count specified).", py "Print unused instructions.",
   py "Enable verbose output."]

/-- check-symbols.py 19-29. -/
def CHECK_SYMBOLS_HELPS : List Str :=
  [HELP_HELP, py "Enable verbose output.", py "Print errors for any complex-only definitions."]

/-- find-symbols.py 21-53. -/
def FIND_SYMBOLS_HELPS : List Str :=
  [HELP_HELP, py "Match symbols that begin with the specified string.",
   py "Print details for matching lines.", py "Match symbols that end with the specified string.",
   py "Fuzzy match symbols with the specified string.", py "Enable verbose output.",
   py "Exact matching. Default is partial."]

/-- list-instructions.py 19-29. -/
def LIST_INSTRUCTIONS_HELPS : List Str :=
  [HELP_HELP, py "Print details (file, line number, etc.).", py "Enable verbose output."]

/-- list-symbols.py 19-24 and listing.py 19-24. -/
def VERBOSE_HELPS : List Str := [HELP_HELP, py "Enable verbose output."]

/-- parse.py 21-31. -/
def PARSE_HELPS : List Str := [HELP_HELP, py "Enable debug output.", py "Enable verbose output."]

/-- The tools by the usage, options and help texts that they give to `OptionParser`:
check-instructions, check-symbols, find-symbols, list-instructions, list-symbols and listing, parse,
genlines, genpages. -/
def TOOL_HELPS : List (Str × List Opt × List Str) :=
  [(FILES_USAGE, CHECK_INSTRUCTIONS_OPTS, CHECK_INSTRUCTIONS_HELPS),
   (FILES_USAGE, CHECK_SYMBOLS_OPTS, CHECK_SYMBOLS_HELPS),
   (FIND_USAGE, FIND_SYMBOLS_OPTS, FIND_SYMBOLS_HELPS),
   (LIST_USAGE, LIST_INSTRUCTIONS_OPTS, LIST_INSTRUCTIONS_HELPS),
   (FILES_USAGE, VERBOSE_OPTS, VERBOSE_HELPS), (FILES_USAGE, PARSE_OPTS, PARSE_HELPS),
   (GENLINES_USAGE, NO_OPTS, [HELP_HELP]), (GENPAGES_USAGE, NO_OPTS, [HELP_HELP])]

end H800
