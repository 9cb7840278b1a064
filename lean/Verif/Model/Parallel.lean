import Verif.Model.Crash

/-!
Runs of `tools/listing.py` that take place at the same time. Each of them reads its decks and writes its
listings one after the other (listing.py 30-49); how their steps follow on each other is left open.

Simplification: a byte is written at the end of the file. A process writes where it stopped writing
before, which is the end of the file as long as no other process writes the same file.
-/

namespace H800

/-- One of the runs: the files it has not read yet, the changes it has still to make for the file read
last, and the error with which it ended. -/
structure ListRun where
  todo : List Str
  pending : List Effect
  stop : Option Stop
  deriving DecidableEq, Repr

/-- All runs, with the disk as it is and as it was at all earlier moments. -/
structure Parallel where
  disk : Disk
  past : List Disk
  runs : List ListRun

/-- listing.py 25-28: a run before its first step. -/
def ListRun.begin (args : List Str) : ListRun :=
  if args.length < 1 then ⟨[], [], some (.raised .systemExit)⟩ else ⟨args, [], none⟩

/-- The runs with these arguments, before their first steps. -/
def Parallel.begin (disk : Disk) (argss : List (List Str)) : Parallel :=
  ⟨disk, [], argss.map ListRun.begin⟩

/-- listing.py 30-46: a run that reads the file `f`; `view` is what it reads, `disk` is what it finds
when it opens the listing. Whether a path is a directory or a file that may not be written does not
change. -/
def ListRun.next (n : Nat) (disk view : Disk) (f : Str) (rest : List Str) : ListRun :=
  match deckCardsD (α := Empty) false view n f with
  | (_, .error e) => ⟨[], [], some e⟩
  | (_, .ok cards) =>
    match writeE disk (listfileOf f) (cards.flatMap deckLine) with
    | (_, .error e) => ⟨[], [], some e⟩
    | (effects, .ok _) => ⟨rest, effects, none⟩

/-- What may be read: a file that has not changed is read as it is. Nothing is assumed on what is read
from a file that is changed meanwhile. -/
def Parallel.View (s : Parallel) (view : Disk) : Prop :=
  ∀ g, (∀ d ∈ s.past, d g = s.disk g) → view g = s.disk g

/-- One step of one of the runs. -/
inductive Parallel.Step (n : Nat) : Parallel → Parallel → Prop
  | write {s : Parallel} {i : Nat} {todo : List Str} {e : Effect} {es : List Effect}
      {stop : Option Stop} : s.runs[i]? = some ⟨todo, e :: es, stop⟩ →
      Step n s ⟨e.run s.disk, s.disk :: s.past, s.runs.set i ⟨todo, es, stop⟩⟩
  | read {s : Parallel} {i : Nat} {f : Str} {rest : List Str} {view : Disk} :
      s.runs[i]? = some ⟨f :: rest, [], none⟩ → s.View view →
      Step n s ⟨s.disk, s.past, s.runs.set i (ListRun.next n s.disk view f rest)⟩

/-- Any number of steps. -/
inductive Parallel.Steps (n : Nat) (s : Parallel) : Parallel → Prop
  | none : Steps n s s
  | more {t u : Parallel} : Steps n s t → Step n t u → Steps n s u

/-- All runs have ended. -/
def Parallel.Ended (s : Parallel) : Prop := ∀ r ∈ s.runs, r.todo = [] ∧ r.pending = []

end H800
