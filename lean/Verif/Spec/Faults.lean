import Verif.Spec.Tools
import Verif.Model.SymTrace

/-!
What is wrong with a line that the symbol table does not take, and what is printed about a file.
-/

namespace H800.Spec

/-- The line is at fault in this way; `l` is its label without blanks. The faults exclude each other:
lower case letters; two or more commas; a prefix that is not one of B, F, L, S, X, Z; the prefixes L
and X; no operation although the label is well-formed. -/
def Fault (upper : Str → Str) (s : Src) (e : SymErr) (l : Str) : Prop :=
  ¬ Starred s ∧ ∃ l₀, HasLabel s l₀ ∧ l = l₀.filter (· ≠ ' ') ∧
    match e with
    | .case => upper l ≠ l
    | .commas => upper l = l ∧ 2 ≤ l.count ','
    | .tagPrefix => upper l = l ∧ ∃ p t, l = p ++ ',' :: t ∧ ',' ∉ p ∧ ',' ∉ t ∧
        p ∉ [['B'], ['F'], ['L'], ['S'], ['X'], ['Z']]
    | .unsupported => upper l = l ∧ ∃ p t, l = p ++ ',' :: t ∧ ',' ∉ t ∧ p ∈ [['L'], ['X']]
    | .noOperation => (∃ tag tt, GoodLabel upper l₀ tag tt) ∧ ∀ o, ¬ HasOp s o
    | .multiple => False

/-- The report is about this line: its fault and its label, and then the file, the line number, the log
number and the tag type as far as it is known. -/
def FaultReport (upper : Str → Str) (s : Src) (d : Diag) : Prop :=
  Fault upper s d.err d.label ∧ d.file = some s.file ∧ d.line = s.num ∧
  IsEntry (columns s.text 2 8) d.lognum ∧ d.card.text = s.text.filter (· ≠ '\n') ∧
  (match d.err with
    | .case => d.tagtype = none
    | .noOperation => ∃ l₀ tag tt, HasLabel s l₀ ∧ GoodLabel upper l₀ tag tt ∧ d.tagtype = some tt
    | _ => d.tagtype = some [' ']) ∧ d.prev = [] ∧ d.command = none

open Classical in
/-- What is printed about a file with these lines while the table is built: the fault of each line in
error, in the order of the lines, and then, if `announce`, their number. -/
def FileReport (upper : Str → Str) (announce : Bool) (p : Str × List Src) (ms : List SymMsg) :
    Prop :=
  ∃ ds : List Diag,
    List.Forall₂ (FaultReport upper) (p.2.filter fun s => decide (InError upper s)) ds ∧
    ms = ds.map .diag ++ if announce then [.fileErrs p.1 ds.length] else []

end H800.Spec
