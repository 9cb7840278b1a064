import Verif.Spec.CommandLine

/-!
The exit status of a tool.
-/

namespace H800.Spec

/-- The word asks for help: as a name, or as a letter after letters of options. -/
def HelpWord (opts : List Opt) (w : Str) : Prop :=
  (∃ cs c cs' os o, w = '-' :: cs ++ c :: cs' ∧ Letters opts cs os ∧ o ∈ opts ∧
    o.short = ['-', c] ∧ o.dest = none) ∨
  ∃ n o, n ≠ [] ∧ w = '-' :: '-' :: n ∧ Names opts w o ∧ o.dest = none

/-- Help is asked for, and all words before that are options or arguments. -/
def HelpFirst (opts : List Opt) (argv : List Str) : Prop :=
  ∃ pre w post os args, argv = pre ++ w :: post ∧ ['-', '-'] ∉ pre ∧ Means opts pre os args ∧
    HelpWord opts w

/-- All these files can be read, with all files that they include. -/
def CanRead (fs : Str → Option Str) (files : List Str) : Prop :=
  ∀ f ∈ files, f ≠ [] ∧ ∃ src, Expands fs f src

/-- The status of a tool with these options: 0 if help is asked for, 2 if the words of the command line
are not understood, or make a misuse of the tool; otherwise 0 if all is well and 1 if it is not. -/
def StatusIs (opts : List Opt) (misuse well : List Opt → List Str → Prop) (argv : List Str)
    (s : Nat) : Prop :=
  (HelpFirst opts argv → s = 0) ∧
  (¬ HelpFirst opts argv → (¬ ∃ os args, Means opts argv os args) → s = 2) ∧
  ∀ os args, Means opts argv os args → ¬ HelpFirst opts argv →
    (misuse os args → s = 2) ∧
    (¬ misuse os args → (well os args → s = 0) ∧ (¬ well os args → s = 1))

end H800.Spec
