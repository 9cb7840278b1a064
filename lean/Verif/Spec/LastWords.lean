import Verif.Spec.Status
import Verif.Spec.Text
import Verif.Spec.Pages

/-!
What a tool says when it ends itself.
-/

namespace H800.Spec

/-- The lines lead to a file that does not exist: reading them one after the other, with the files that
they include, the first line that is not a comment, has no file to include, or names no file, or names a
file that does not exist, names this one, which does not exist. -/
inductive MeetsGap (fs : Str → Option Str) : List Str → Str → Prop
  | comment {l : Str} {ls : List Str} {g : Str} : MeetsGap fs ls g → MeetsGap fs (('#' :: l) :: ls) g
  | plain {l : Str} {ls : List Str} {g : Str} : l.head? ≠ some '#' → l.head? ≠ some '$' →
      MeetsGap fs ls g → MeetsGap fs (l :: ls) g
  | past {l name : Str} {ls : List Str} {g : Str} {src : List Src} : Word1 l name →
      Expands fs name src → MeetsGap fs ls g → MeetsGap fs (('$' :: l) :: ls) g
  | inside {l name text : Str} {ls : List Str} {g : Str} : Word1 l name → fs name = some text →
      MeetsGap fs (readlines text) g → MeetsGap fs (('$' :: l) :: ls) g
  | here {l name : Str} {ls : List Str} : Word1 l name → fs name = none →
      MeetsGap fs (('$' :: l) :: ls) name

/-- Reading the file ends at a file that does not exist, which is said like this. -/
def SaysMissing (fs : Str → Option Str) (f : Str) (t : Str) : Prop :=
  (fs f = none ∧ t = py "ERROR: File \"" ++ f ++ py "\" does not exist!") ∨
  ∃ text g, fs f = some text ∧ MeetsGap fs (readlines text) g ∧
    t = py "File \"" ++ g ++ py "\" does not exist"

/-- Reading the files one after the other ends at a file that does not exist, which is said like this. -/
def FilesSay (fs : Str → Option Str) (files : List Str) (t : Str) : Prop :=
  ∃ pre f post, files = pre ++ f :: post ∧ CanRead fs pre ∧ f ≠ [] ∧ SaysMissing fs f t

/-- What is said when a command line is not accepted: how the program is to be called, and what is
wrong. -/
def usageError (prog synopsis fault : Str) : Str :=
  py "Usage: " ++ prog ++ py " " ++ synopsis ++ py "\n\n" ++ prog ++ py ": error: " ++ fault ++ py "\n"

/-- A word of the command line that is not understood, and what is wrong with it: a letter that is not an
option; or a name, up to the first equals sign, that no option has or begins with, or that more than one
begins with; or an option given a value. -/
inductive WordFault (opts : List Opt) : Str → Str → Prop
  | letter {cs cs' : Str} {c : Char} {os : List Opt} : (cs ++ c :: cs').head? ≠ some '-' →
      Letters opts cs os → (∀ o ∈ os, o.dest ≠ none) → (∀ o ∈ opts, o.short ≠ ['-', c]) →
      WordFault opts ('-' :: cs ++ c :: cs') (py "no such option: -" ++ [c])
  | unknown {w n : Str} : BeforeFirst '=' ('-' :: '-' :: w) n → w ≠ [] →
      (∀ o ∈ opts, ¬ n <+: o.long) →
      WordFault opts ('-' :: '-' :: w) (py "no such option: " ++ n)
  | ambiguous {w n : Str} {a b : Opt} {names : List Str} : BeforeFirst '=' ('-' :: '-' :: w) n → w ≠ [] →
      (∀ o ∈ opts, o.long ≠ n) → a ∈ opts → b ∈ opts → a.long ≠ b.long → n <+: a.long → n <+: b.long →
      names.Nodup → (∀ x, x ∈ names ↔ n <+: x ∧ ∃ o ∈ opts, o.long = x) → names.Pairwise NotAfter →
      WordFault opts ('-' :: '-' :: w)
        (py "ambiguous option: " ++ n ++ py " (" ++ List.intercalate (py ", ") names ++ py "?)")
  | value {w n v : Str} {o : Opt} : '-' :: '-' :: w = n ++ '=' :: v → '=' ∉ n → Names opts n o →
      WordFault opts ('-' :: '-' :: w) (o.long ++ py " option does not take a value")

/-- The first word of the command line that is not an option or argument has this fault; no help is asked
for before it. -/
def NotUnderstood (opts : List Opt) (argv : List Str) (fault : Str) : Prop :=
  ∃ pre w post os args, argv = pre ++ w :: post ∧ ['-', '-'] ∉ pre ∧ Means opts pre os args ∧
    (∀ o ∈ os, o.dest ≠ none) ∧ WordFault opts w fault

/-- Listing the files one after the other ends at a file that does not exist, which is said like this. -/
def ListingSays (fs : Str → Option Str) (files : List Str) (t : Str) : Prop :=
  ∃ pre f post fs', files = pre ++ f :: post ∧ (∀ g ∈ pre, g ≠ []) ∧ Listed fs pre fs' ∧ f ≠ [] ∧
    SaysMissing fs' f t

/-- What a tool says when it ends itself: nothing if help is asked for; what is wrong with the first word
that is not understood; what is wrong with the options and arguments; otherwise what is said about the
files, if anything. -/
def SaysIs (opts : List Opt) (prog synopsis : Str) (misuse stops : List Opt → List Str → Str → Prop)
    (argv : List Str) (said : Option Str) : Prop :=
  (HelpFirst opts argv → said = none) ∧
  (∀ fault, NotUnderstood opts argv fault → said = some (usageError prog synopsis fault)) ∧
  ∀ os args, Means opts argv os args → ¬ HelpFirst opts argv →
    (∀ fault, misuse os args fault → said = some (usageError prog synopsis fault)) ∧
    ((∀ fault, ¬ misuse os args fault) →
      ∀ t, said = some t ↔ ∃ s, stops os args s ∧ t = s ++ ['\n'])

/-- The misuse of a tool that wants a file: none is given. -/
def NoFile (_ : List Opt) (args : List Str) (fault : Str) : Prop :=
  args = [] ∧ fault = py "usage: %prog filename"

/-- The misuse of list-instructions: no argument, or one that is not an instruction up to its first
comma. -/
def NoOpcode (_ : List Opt) (args : List Str) (fault : Str) : Prop :=
  (args = [] ∧ fault = py "usage: %prog filename [filename]...") ∨
  ∃ opcode files p, args = opcode :: files ∧ BeforeFirst ',' opcode p ∧ p ∉ INSTRUCTIONS ∧
    fault = py "ERROR: invalid opcode \"" ++ opcode ++ py "\""

/-- The misuse of find-symbols: options that exclude each other; or else no symbol or no file. -/
def NoSearch (os : List Opt) (args : List Str) (fault : Str) : Prop :=
  (Conflict os ∧ fault = py "Conflicting options!") ∨
  (¬ Conflict os ∧ args.length < 2 ∧
    fault = py "usage: %prog [options] symbol filename [filename]...")

/-- The misuse of genlines: fewer than two arguments, or one of these two has more than six
characters. -/
def NoNumbers (_ : List Opt) (args : List Str) (fault : Str) : Prop :=
  (args.length < 2 ∧ fault = py "Start and End numbers must be supplied!") ∨
  (2 ≤ args.length ∧ (∃ a ∈ args.take 2, 6 < a.length) ∧
    fault = py "Number of digits cannot be greater than 6!")

/-- The misuse of genpages: no argument, no such file, no log section in it, or pages in the wrong
order. -/
def NoPages (fs : Str → Option Str) (_ : List Opt) (args : List Str) (fault : Str) : Prop :=
  (args = [] ∧ fault = py "usage: %prog filename") ∨
  ∃ file rest, args = file :: rest ∧
    ((fs file = none ∧ fault = py "Filename " ++ file ++ py " does not exist!") ∨
     ∃ text, fs file = some text ∧ SoundComments (readlines text) ∧
      (((¬ ∃ sec c8, LogName (readlines text) sec c8) ∧ fault = py "Cannot determine log section!") ∨
       (∃ sec c8, LogName (readlines text) sec c8) ∧ ∃ a b, LastPages (readlines text) a b ∧ b < a ∧
        fault = py "Invalid page numbers!"))

/-- The second text is the first one with every occurrence of `old` replaced by `new`; occurrences are
taken from the left and do not overlap. -/
inductive Replaced (old new : Str) : Str → Str → Prop
  | nil : Replaced old new [] []
  | found {s t : Str} : Replaced old new s t → Replaced old new (old ++ s) (new ++ t)
  | other {c : Char} {s t : Str} : (¬ ∃ r, c :: s = old ++ r) → Replaced old new s t →
      Replaced old new (c :: s) (c :: t)

/-- Something is said exactly if the run ends itself, but for help. -/
def SaysAtExit (opts : List Opt) (argv : List Str) (said : Option Str) (ends : Py Unit) : Prop :=
  (∃ t, said = some t) ↔ ¬ HelpFirst opts argv ∧ ends = .error .systemExit

end H800.Spec
