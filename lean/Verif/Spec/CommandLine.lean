import Verif.Spec.Options
import Verif.Spec.Verbose
import Mathlib.Data.List.Forall2

/-!
What the tools print for a command line, in terms of the options given and of the source lines.
-/

namespace H800.Spec

open scoped Classical

/-- The card shows this source line. -/
def CardOf (s : Src) (c : CodeCard) : Prop :=
  c.file = some s.file ∧ c.line = s.num ∧ c.text = s.text.filter (· ≠ '\n') ∧
    ∀ i, HasInstr s i → c.instruction = some i

/-- What is printed for a source line: itself if it has an instruction and such lines are asked for,
and an error if its instruction is not known. -/
def LineSays (shown : Prop) (s : Src) (l : List CheckMsg) : Prop :=
  ∃ c, CardOf s c ∧ l = (if shown ∧ ∃ i, HasInstr s i then [.card c] else []) ++
    if BadInstr s then [.invalid c] else []

/-- The number of source lines of this kind. -/
noncomputable def number (src : List Src) (p : Src → Prop) : Nat :=
  (src.filter fun s => decide (p s)).length

/-- The lines of the frequency report: one for each instruction, with its number; only for those that
occur if `used`; by number if `sort` (in the order of `INSTRUCTIONS` if the numbers are equal),
otherwise by name. -/
def FreqsAre (src : List Src) (used sort : Prop) (fr : List (Str × Nat)) : Prop :=
  (∀ i n, (i, n) ∈ fr ↔ i ∈ INSTRUCTIONS ∧ n = number src (fun s => ¬ Starred s ∧ HasInstr s i) ∧
    (used → n ≠ 0)) ∧
  (sort → fr.Pairwise fun a b => b.2 < a.2 ∨ a.2 = b.2 ∧ [a.1, b.1].Sublist INSTRUCTIONS) ∧
  (¬ sort → fr.Pairwise fun a b => StrLt a.1 b.1)

/-- The instructions that occur on no line that is not starred, sorted. -/
def UnusedAre (src : List Src) (un : List Str) : Prop :=
  un.Pairwise StrLt ∧ ∀ i, i ∈ un ↔ i ∈ INSTRUCTIONS ∧ ∀ s ∈ src, HasInstr s i → Starred s

/-- What check-instructions prints, apart from what `--verbose` adds. -/
def CheckSays (os : List Opt) (src : List Src) (msgs : List CheckMsg) : Prop :=
  ∃ ls fr un, List.Forall₂ (LineSays (Given os (py "printOpcodes"))) src ls ∧
    FreqsAre src (Given os (py "unused")) (Given os (py "sort")) fr ∧ UnusedAre src un ∧
    msgs = ls.flatten ++
      (if Given os (py "count") then
        .lines src.length :: .total (number src fun s => ∃ i, HasInstr s i) ::
          fr.map fun p => .freq p.1 p.2 (number src fun s => ∃ i, HasInstr s i)
        else []) ++
      (if Given os (py "unused") then .unusedHeader :: un.map .unused else []) ++
      [.errors (number src BadInstr)]

/-- What `--verbose` adds for each file: what is told while it is read, and then the starred lines of
this kind. -/
def VerboseAdds (fs : Str → Option Str) (p : Src → Prop) (files : List Str) (l : List Extra) :
    Prop :=
  ∃ notes srcs, List.Forall₂ (fun f m => Tells fs f true m) files notes ∧
    List.Forall₂ (Expands fs) files srcs ∧
    l = (List.zipWith (fun m src => m.map Extra.note ++
      (src.filter fun s => decide (Starred s ∧ p s)).map skipped) notes srcs).flatten

/-- What list-instructions prints for a line. -/
def ListsLine (details : Prop) (s : Src) (l : Str) : Prop :=
  (¬ details → l = s.text.filter (· ≠ '\n')) ∧
  (details → ∃ a b, LeftIn 48 s.file a ∧ RightIn 6 (numeral 10 s.num) b ∧
    l = a ++ ' ' :: b ++ ' ' :: s.text.filter (· ≠ '\n'))

/-- Listing the files one after the other turns one file system into the other, and this is told: for
each file what is told while it is read, and then the name of its listing. -/
inductive ListedTelling : (Str → Option Str) → List Str → (Str → Option Str) → List Extra → Prop
  | nil (fs) : ListedTelling fs [] fs []
  | cons {fs fs1 fs' : Str → Option Str} {f : Str} {files : List Str} {out : List Src}
      {name : Str} {ls : List Str} {m : List Note} {l : List Extra} :
      Expands fs f out → Tells fs f true m → ListingName f name → List.Forall₂ ListingLine out ls →
      fs1 name = some (ls.flatMap fun l => l ++ ['\n']) → (∀ g, g ≠ name → fs1 g = fs g) →
      ListedTelling fs1 files fs' l →
      ListedTelling fs (f :: files) fs' (m.map Extra.note ++ .wrote name :: l)

/-- What `--verbose` adds to the output of the symbol tools. -/
def NotesAre (fs : Str → Option Str) (files : List Str) (l : List Extra) : Prop :=
  ∃ notes, List.Forall₂ (fun f m => Tells fs f true m) files notes ∧ l = notes.flatten.map .note

/-- The tag is defined in one of the files. -/
def IsDefined (upper : Str → Str) (srcs : List (Str × List Src)) (tag : Str) : Prop :=
  ∃ k i s tt seg sub kind, DefinedIn upper srcs k i s tag tt seg sub kind

/-- The tag has a definition of this kind in one of the files. -/
def HasDef (upper : Str → Str) (srcs : List (Str × List Src)) (tag kind : Str) : Prop :=
  ∃ k i s tt seg sub, DefinedIn upper srcs k i s tag tt seg sub kind

/-- A fuzzy finder that returns at most as many choices as it is asked for. -/
def Chooses (extract : Str → List Str → Nat → List Str) : Prop :=
  ∀ q cs n, (extract q cs n).length ≤ n ∧ ∀ x ∈ extract q cs n, x ∈ cs

/-- At most ten symbols, each of which has a simple definition. -/
def Suggested (upper : Str → Str) (srcs : List (Str × List Src)) (l : List Str) : Prop :=
  l.length ≤ 10 ∧ ∀ x ∈ l, HasDef upper srcs x (py "simple")

/-- Two of the options that exclude each other are given. -/
def Conflict (os : List Opt) : Prop :=
  ∃ d ∈ [py "begin", py "end", py "fuzzy", py "exact"],
    ∃ d' ∈ [py "begin", py "end", py "fuzzy", py "exact"], d ≠ d' ∧ Given os d ∧ Given os d'

/-- The definitions of a symbol: those that no later line replaces. -/
def DefsAre (upper : Str → Str) (srcs : List (Str × List Src)) (symbol : Str)
    (d : Dict Str (Dict Str (Dict Str SymEntry))) : Prop :=
  (∃ k i s tt seg sub kind, FinalDef upper srcs k i s symbol tt seg sub kind) ∧
  (∀ seg sub kind e, Recorded [(symbol, d)] symbol seg sub kind e →
    ∃ k i s tt, FinalDef upper srcs k i s symbol tt seg sub kind ∧ Describes s tt e) ∧
  (∀ k i s tt seg sub kind, FinalDef upper srcs k i s symbol tt seg sub kind →
    ∃ e, Recorded [(symbol, d)] symbol seg sub kind e ∧ Describes s tt e)

/-- The definitions in all files as list-symbols lists them: sorted by tag, segment, subsegment and
kind. -/
def RowsAre (upper : Str → Str) (srcs : List (Str × List Src)) (l : List ListLine) : Prop :=
  (rows [] [] [] l).Pairwise Row.Before ∧
  (∀ r, r ∈ rows [] [] [] l ↔ ∃ k i s,
    FinalDef upper srcs k i s r.tag r.tagtype r.seg r.sub r.kind ∧
    BeforeFirst '.' s.file r.file ∧ r.line = s.num ∧ r.card = s.text.filter (· ≠ '\n')) ∧
  ∀ n, .errors n ∈ l ↔ 0 < n ∧ n = number (srcs.flatMap (·.2)) (InError upper)

end H800.Spec
