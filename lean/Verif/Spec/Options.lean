import Verif.Model.Options

/-!
What a command line means.
-/

namespace H800.Spec

/-- Options that can be told apart: `-c` with a letter other than the dash, `--name` with a name that
is not empty and has no equals sign; no two have the same letter, name or attribute. -/
def GoodOpts (opts : List Opt) : Prop :=
  (opts.map (·.short)).Nodup ∧ (opts.map (·.long)).Nodup ∧ (opts.filterMap (·.dest)).Nodup ∧
  ∀ o ∈ opts, (∃ c, c ≠ '-' ∧ o.short = ['-', c]) ∧
    ∃ n : Str, n ≠ [] ∧ '=' ∉ n ∧ o.long = '-' :: '-' :: n

/-- The letters `cs` are those of the options `os`, in this order. -/
def Letters (opts : List Opt) (cs : Str) (os : List Opt) : Prop :=
  List.Forall₂ (fun c o => o ∈ opts ∧ o.short = ['-', c]) cs os

/-- The word `n` is the name of the option `o`, or the beginning of its name and of no other. -/
def Names (opts : List Opt) (n : Str) (o : Opt) : Prop :=
  o ∈ opts ∧ (o.long = n ∨ n <+: o.long ∧ ∀ p ∈ opts, n <+: p.long → p = o)

/-- An argument that is not an option: a single dash, or it does not begin with a dash. -/
def PlainArg (a : Str) : Prop := a = ['-'] ∨ a.head? ≠ some '-'

/-- The command line consists of the options and the arguments given: up to the first `--` options may
stand between the arguments; all that follows it are arguments. -/
inductive Means (opts : List Opt) : List Str → List Opt → List Str → Prop
  | done : Means opts [] [] []
  | stop (rest : List Str) : Means opts (['-', '-'] :: rest) [] rest
  | plain {a : Str} {l r : List Str} {os : List Opt} : PlainArg a → Means opts l os r →
      Means opts (a :: l) os (a :: r)
  | letters {cs : Str} {l r : List Str} {os os' : List Opt} : cs ≠ [] → Letters opts cs os →
      Means opts l os' r → Means opts (('-' :: cs) :: l) (os ++ os') r
  | name {n : Str} {l r : List Str} {o : Opt} {os : List Opt} : n ≠ [] →
      Names opts ('-' :: '-' :: n) o → Means opts l os r →
      Means opts (('-' :: '-' :: n) :: l) (o :: os) r

/-- One of the options sets this attribute. -/
def Given (os : List Opt) (d : Str) : Prop := ∃ o ∈ os, o.dest = some d

/-- The options of all tools. -/
def ALL_OPTS : List (List Opt) :=
  [CHECK_INSTRUCTIONS_OPTS, CHECK_SYMBOLS_OPTS, FIND_SYMBOLS_OPTS, LIST_INSTRUCTIONS_OPTS,
   VERBOSE_OPTS, PARSE_OPTS, NO_OPTS]

/-- The same options but perhaps for the one that sets this attribute. -/
def SameBut (d : Str) (os os' : List Opt) : Prop := ∀ o, o.dest ≠ some d → (o ∈ os ↔ o ∈ os')

/-- For some command lines of this tool, which differ in the option only, the runs differ. -/
def Matters {β : Type} (opts : List Opt) (cmd : List Str → β) (d : Str) : Prop :=
  ∃ argv argv' args os os', Means opts argv os args ∧ Means opts argv' os' args ∧
    SameBut d os os' ∧ cmd argv ≠ cmd argv'

end H800.Spec
