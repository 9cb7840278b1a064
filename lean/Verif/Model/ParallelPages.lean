import Verif.Model.Crash

/-!
Runs of `tools/genpages.py` that take place at the same time. Each of them reads its file (genpages.py
33-34), and then opens it with mode 'a' and writes the text (78-79), which the operating system appends to
the file as it is by then. How the text is divided into pieces depends on the buffers of Python; how the
steps of the runs follow on each other is left open.

Simplifications: reading a file is one step. As files are only appended to, what is read is the file as it
is when its end is met. A run has one argument (all others are ignored, 26).
-/

namespace H800

/-- One of the runs: its file, the pieces that it has still to append (None before it has read the file),
and the error with which it ended. -/
structure PageRun where
  /-- the file given -/
  file : Str
  /-- the pieces not appended -/
  pending : Option (List (List Effect))
  /-- the error -/
  stop : Option Stop
  deriving DecidableEq, Repr

/-- All runs, with the disk. -/
structure ParallelPages where
  /-- the disk -/
  disk : Disk
  /-- the runs -/
  runs : List PageRun

/-- The runs on these files, before their first steps. -/
def ParallelPages.begin (disk : Disk) (files : List Str) : ParallelPages :=
  ⟨disk, files.map fun f => ⟨f, none, none⟩⟩

/-- One step of run `i`: genpages.py 33-75 or one piece of 78-79; `cut i` is how run `i` divides its text.
Nothing happens if there is no such run or it has ended. -/
def ParallelPages.step (cut : Nat → List Effect → List (List Effect)) (n : Nat) (s : ParallelPages)
    (i : Nat) : ParallelPages :=
  match s.runs[i]? with
  | none => s
  | some r =>
    match r.pending with
    | none =>
      match genpagesE s.disk n [r.file] with
      | (_, .error e) => { s with runs := s.runs.set i ⟨r.file, some [], some e⟩ }
      | (effects, .ok _) => { s with runs := s.runs.set i ⟨r.file, some (cut i effects), none⟩ }
    | some [] => s
    | some (p :: ps) => ⟨p.foldl Effect.run s.disk, s.runs.set i ⟨r.file, some ps, r.stop⟩⟩

/-- Any steps: the schedule says which run makes the next one. -/
def ParallelPages.run (cut : Nat → List Effect → List (List Effect)) (n : Nat) (s : ParallelPages)
    (schedule : List Nat) : ParallelPages := schedule.foldl (ParallelPages.step cut n) s

/-- All runs have ended. -/
def ParallelPages.Ended (s : ParallelPages) : Prop := ∀ r ∈ s.runs, r.pending = some []

instance (s : ParallelPages) : Decidable s.Ended := by unfold ParallelPages.Ended; infer_instance

/-- Runs one after the other. -/
def serialPages (n : Nat) (disk : Disk) (files : List Str) : Disk :=
  files.foldl (fun d f => (genpagesD d n [f]).1) disk

end H800
