import Verif.Spec.CommandLine

/-!
Programs that differ in the names of their tags only.
-/

namespace H800.Spec

/-- The label of the line is well-formed, with this tag and tag type. -/
def Tagged (upper : Str → Str) (s : Src) (tag tagtype : Str) : Prop :=
  ∃ l, HasLabel s l ∧ GoodLabel upper l tag tagtype

/-- The same line but for the columns of the label; a line with a well-formed label has the new name of
its tag there, and every other line is the same. -/
def RenamedLine (upper : Str → Str) (name : Str → Str) (s s' : Src) : Prop :=
  s'.file = s.file ∧ s'.num = s.num ∧ s'.text.take 8 = s.text.take 8 ∧
  s'.text.drop 19 = s.text.drop 19 ∧ ((∀ tag tt, ¬ Tagged upper s tag tt) → s' = s) ∧
  ∀ tag tt, Tagged upper s tag tt → Tagged upper s' (name tag) tt

/-- The same files, with the lines renamed. -/
def RenamedFiles (upper : Str → Str) (name : Str → Str) (srcs srcs' : List (Str × List Src)) : Prop :=
  List.Forall₂ (fun p p' => p'.1 = p.1 ∧ List.Forall₂ (RenamedLine upper name) p.2 p'.2) srcs srcs'

/-- Tags that are defined in the files and differ get names that differ. -/
def Distinct (upper : Str → Str) (name : Str → Str) (srcs : List (Str × List Src)) : Prop :=
  ∀ x y, IsDefined upper srcs x → IsDefined upper srcs y → name x = name y → x = y

/-- The new names of tags that are defined in the files are in the same order. -/
def InOrder (upper : Str → Str) (name : Str → Str) (srcs : List (Str × List Src)) : Prop :=
  ∀ x y, IsDefined upper srcs x → IsDefined upper srcs y → StrLt x y → StrLt (name x) (name y)

/-- The same row of a listing but for the tag, with the text of the renamed line. -/
def RenamedRow (upper : Str → Str) (name : Str → Str) (r r' : Row) : Prop :=
  (∃ s s', RenamedLine upper name s s' ∧ r.card = s.text.filter (· ≠ '\n') ∧
    r'.card = s'.text.filter (· ≠ '\n')) ∧
  r'.tag = name r.tag ∧ r'.seg = r.seg ∧ r'.sub = r.sub ∧ r'.kind = r.kind ∧
  r'.tagtype = r.tagtype ∧ r'.file = r.file ∧ r'.line = r.line

/-- The same report of an error but for the label and the text of the line; the same number of errors. -/
def RenamedReport : SymMsg → SymMsg → Prop
  | .diag d, .diag d' => d'.err = d.err ∧ d'.file = d.file ∧ d'.line = d.line ∧
      d'.lognum = d.lognum ∧ d'.tagtype = d.tagtype
  | .fileErrs f n, m => m = .fileErrs f n
  | _, _ => False

/-- The numbers of errors in the reports. -/
def errorCounts (l : List SymMsg) : List Nat :=
  l.filterMap fun m => match m with
    | .fileErrs _ n => some n
    | .checkErrs n => some n
    | .total n => some n
    | _ => none

end H800.Spec
