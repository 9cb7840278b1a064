import Verif.Model.Help
import Verif.Spec.Text
import Verif.Spec.Options
import Verif.Spec.CommandLine

/-!
What a help shows.
-/

namespace H800.Spec

/-- A line of the help about the option with the spellings `s` and `l`: both, then from this column on
what it does. -/
def OptLine (column : Nat) (s l what line : Str) : Prop :=
  ∃ gap, 2 ≤ gap ∧ line = py "  " ++ s ++ py ", " ++ l ++ List.replicate gap ' ' ++ what ∧
    line.length = column + what.length

/-- Some line of the text is about an option with these spellings, which have no spaces or commas. -/
def ShowsOption (text s l : Str) : Prop :=
  ∃ lines line column what, LinesOf text lines ∧ line ++ ['\n'] ∈ lines ∧ OptLine column s l what line ∧
    (∀ c ∈ s, c ≠ ' ' ∧ c ≠ ',') ∧ ∀ c ∈ l, c ≠ ' ' ∧ c ≠ ','

/-- How the tools are called, after the name. -/
def SYNOPSES : List Str :=
  [py "filename [filename]...", py "filename [filename]...", py "[options] symbol filename [filename]...",
   py "opcode filename [filename]...", py "filename [filename]...", py "filename [filename]...",
   py "start end [step] [startcol] [endcol]", py "filename"]

/-- What the options of the tools are for, tool by tool. -/
def EXPLAINED : List (List (Str × Str)) :=
  let h := (py "--help", py "show this help message and exit")
  let v := (py "--verbose", py "Enable verbose output.")
  [[h, (py "--all", py "Check for all errors."), (py "--count", py "Print opcode frequency count."),
    (py "--invalid", py "Check for invalid opcodes."), (py "--print-opcodes", py "Print all opcodes found."),
    (py "--sort", py "Sort by opcode frequency (if --count specified)."),
    (py "--unused", py "Print unused instructions."), v],
   [h, v, (py "--complex", py "Print errors for any complex-only definitions.")],
   [h, (py "--begin", py "Match symbols that begin with the specified string."),
    (py "--details", py "Print details for matching lines."),
    (py "--end", py "Match symbols that end with the specified string."),
    (py "--fuzzy", py "Fuzzy match symbols with the specified string."), v,
    (py "--exact", py "Exact matching. Default is partial.")],
   [h, (py "--details", py "Print details (file, line number, etc.)."), v],
   [h, v], [h, (py "--debug", py "Enable debug output."), v], [h], [h]]

/-- These messages of find-symbols show that the symbol is found: it is among the names listed, or it is
the word that was looked for and its definitions are shown. -/
def ShowsSymbol (upper : Str → Str) (srcs : List (Str × List Src)) (word x : Str)
    (out : List (VMsg SymMsg)) : Prop :=
  (∃ l, SymMsg.found (.names l) ∈ out.filterMap usual ∧ x ∈ l) ∨
  x = word ∧ ∃ d, SymMsg.found (.defs d) ∈ out.filterMap usual ∧ DefsAre upper srcs word d

/-- What the help of find-symbols says about the symbols that are found: with `--begin` those that begin
with the word, with `--end` those that end with it, with `--exact` the word itself, by default those in
which the word occurs. -/
def Matching (os : List Opt) (word x : Str) : Prop :=
  (Given os (py "begin") ∧ ∃ r, x = word ++ r) ∨ (Given os (py "end") ∧ ∃ r, x = r ++ word) ∨
  (Given os (py "exact") ∧ x = word) ∨
  (¬ Given os (py "begin") ∧ ¬ Given os (py "end") ∧ ¬ Given os (py "exact") ∧
    ∃ q r, x = q ++ word ++ r)

/-- A search for a word in files that can be read, without `--fuzzy`. -/
def Search (fs : FileSystem) (argv : List Str) (os : List Opt) (word : Str)
    (srcs : List (Str × List Src)) : Prop :=
  ∃ files, Means FIND_SYMBOLS_OPTS argv os (word :: files) ∧ (¬ ∃ o ∈ os, o.dest = none) ∧
    ¬ Conflict os ∧ ¬ Given os (py "fuzzy") ∧ files ≠ [] ∧ (∀ f ∈ files, f ≠ []) ∧
    PlainFiles files ∧ Read fs files srcs

end H800.Spec
