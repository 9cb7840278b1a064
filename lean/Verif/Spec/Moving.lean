import Verif.Spec.Cards

/-! Spec of reading files that change. -/

namespace H800.Spec

/-- The lines `ls` of `file`, from line `i` on, expand to the source lines `out` if each file included is as
it is at some moment; `os` are the files opened, in order, with the moments. -/
inductive ExpandT (w : Nat → Str → Option Str) : Str → Nat → List Str → List Src → List (Str × Nat) → Prop
  | nil (file : Str) (i : Nat) : ExpandT w file i [] [] []
  | comment {file : Str} {i : Nat} {l : Str} {ls : List Str} {out : List Src} {os : List (Str × Nat)} :
      ExpandT w file (i + 1) ls out os → ExpandT w file i (('#' :: l) :: ls) out os
  | incl {file : Str} {i : Nat} {l : Str} {ls : List Str} {name text : Str} {s : Nat} {inner out : List Src}
      {os os' : List (Str × Nat)} :
      Word1 l name → w s name = some text → ExpandT w name 1 (readlines text) inner os →
      ExpandT w file (i + 1) ls out os' →
      ExpandT w file i (('$' :: l) :: ls) (inner ++ out) ((name, s) :: os ++ os')
  | plain {file : Str} {i : Nat} {l : Str} {ls : List Str} {out : List Src} {os : List (Str × Nat)} :
      l.head? ≠ some '#' → l.head? ≠ some '$' →
      ExpandT w file (i + 1) ls out os → ExpandT w file i (l :: ls) (⟨file, i, l⟩ :: out) os

/-- The same for a file. -/
def ExpandsT (w : Nat → Str → Option Str) (file : Str) (out : List Src) (os : List (Str × Nat)) : Prop :=
  ∃ s text os', w s file = some text ∧ ExpandT w file 1 (readlines text) out os' ∧ os = (file, s) :: os'

/-- The same for files read one after the other. -/
inductive ReadsT (w : Nat → Str → Option Str) : List Str → List (List Src) → List (Str × Nat) → Prop
  | nil : ReadsT w [] [] []
  | cons {f : Str} {files : List Str} {out : List Src} {outs : List (List Src)} {os os' : List (Str × Nat)} :
      ExpandsT w f out os → ReadsT w files outs os' → ReadsT w (f :: files) (out :: outs) (os ++ os')

/-- Each file was there at the access before it was opened. -/
def Sighted (w : Nat → Str → Option Str) (os : List (Str × Nat)) : Prop :=
  ∀ p ∈ os, ∃ s, p.2 = s + 1 ∧ w s p.1 ≠ none

/-- The moments are one after the other, from `t` on and before `t'`. -/
def Moments (t t' : Nat) (os : List (Str × Nat)) : Prop :=
  (os.map (·.2)).Pairwise (· < ·) ∧ ∀ p ∈ os, t ≤ p.2 ∧ p.2 < t'

/-- Each file is in `fs` as it is at some moment from `t` to `t'`. -/
def Snapshot (w : Nat → Str → Option Str) (t t' : Nat) (fs : Str → Option Str) : Prop :=
  ∀ g, ∃ s, t ≤ s ∧ s ≤ t' ∧ fs g = w s g

/-- A file that is opened more than once is the same each time. -/
def Steady (w : Nat → Str → Option Str) (os : List (Str × Nat)) : Prop :=
  ∀ p ∈ os, ∀ q ∈ os, p.1 = q.1 → w p.2 p.1 = w q.2 q.1

end H800.Spec
