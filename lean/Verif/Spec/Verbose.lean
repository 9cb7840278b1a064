import Verif.Spec.Tools
import Verif.Model.Verbose

/-!
What the option `--verbose` adds to the output of a tool.
-/

namespace H800.Spec

/-- What can be told while a file is read: that reading of a file begins, that a comment is skipped. -/
inductive Note where
  /-- a file is opened -/
  | reading (file : Str)
  /-- this line is a comment -/
  | comment (file : Str) (line : Nat)
  deriving DecidableEq, Repr

/-- What is told while the lines `ls` of `file`, starting at line `i`, are read with all the files they
include; `done` is false if an include line names no file, or one that does not exist: then this is
all that is told. -/
inductive Tell (fs : Str → Option Str) : Str → Nat → List Str → Bool → List Note → Prop
  | nil (file : Str) (i : Nat) : Tell fs file i [] true []
  | comment {file : Str} {i : Nat} {l : Str} {ls : List Str} {done : Bool} {m : List Note} :
      Tell fs file (i + 1) ls done m →
      Tell fs file i (('#' :: l) :: ls) done (.comment file i :: m)
  | incl {file : Str} {i : Nat} {l : Str} {ls : List Str} {name text : Str} {done : Bool}
      {inner m : List Note} :
      Word1 l name → fs name = some text → Tell fs name 1 (readlines text) true inner →
      Tell fs file (i + 1) ls done m →
      Tell fs file i (('$' :: l) :: ls) done (.reading name :: inner ++ m)
  | inside {file : Str} {i : Nat} {l : Str} {ls : List Str} {name text : Str} {inner : List Note} :
      Word1 l name → fs name = some text → Tell fs name 1 (readlines text) false inner →
      Tell fs file i (('$' :: l) :: ls) false (.reading name :: inner)
  | missing {file : Str} {i : Nat} {l : Str} {ls : List Str} {name : Str} :
      Word1 l name → fs name = none → Tell fs file i (('$' :: l) :: ls) false []
  | nameless {file : Str} {i : Nat} {l : Str} {ls : List Str} :
      Blank l → Tell fs file i (('$' :: l) :: ls) false []
  | plain {file : Str} {i : Nat} {l : Str} {ls : List Str} {done : Bool} {m : List Note} :
      l.head? ≠ some '#' → l.head? ≠ some '$' →
      Tell fs file (i + 1) ls done m → Tell fs file i (l :: ls) done m

/-- What is told while an existing file is read. -/
def Tells (fs : Str → Option Str) (file : Str) (done : Bool) (m : List Note) : Prop :=
  ∃ text m', fs file = some text ∧ Tell fs file 1 (readlines text) done m' ∧
    m = .reading file :: m'

/-- What the option adds to the output: notes, lines that are skipped (file, number, text) and the
names of listings. -/
inductive Extra where
  /-- while reading -/
  | note (n : Note)
  /-- a line skipped -/
  | starred (file : Option Str) (line : Int) (text : Str)
  /-- a listing written -/
  | wrote (file : Str)
  deriving DecidableEq, Repr

/-- A message that the option adds. -/
def extra {α : Type} : VMsg α → Option Extra
  | .reading f => some (.note (.reading f))
  | .meta_ f n => some (.note (.comment f n))
  | .starred c => some (.starred c.file c.line c.text)
  | .wrote f => some (.wrote f)
  | .msg _ => none

/-- A message that does not depend on the option. -/
def usual {α : Type} : VMsg α → Option α
  | .msg m => some m
  | _ => none

/-- A source line that is skipped. -/
def skipped (s : Src) : Extra := .starred (some s.file) s.num (s.text.filter (· ≠ '\n'))

/-- The numbers of errors per file among the messages. -/
def errNumbers : List SymMsg → List Nat
  | [] => []
  | .fileErrs _ n :: l => n :: errNumbers l
  | _ :: l => errNumbers l

end H800.Spec
