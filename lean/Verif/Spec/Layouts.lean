import Verif.Spec.Cards
import Verif.Model.Cards

/-!
What a card of any layout holds, said without the functions of the model.
-/

namespace H800.Spec

/-- The position a bound of a slice stands for: negative ones count from the end. -/
def pos (n : Nat) (i : Int) : Int := if i < 0 then max 0 (i + n) else i

/-- The characters of `s` from bound `a` on and before bound `b`. -/
def Cut (s : Str) (a b : Int) (f : Str) : Prop :=
  f = ((List.range s.length).filter fun (p : Nat) =>
    decide (pos s.length a ≤ (p : Int) ∧ (p : Int) < pos s.length b)).filterMap (s[·]?)

/-- What is punched in the columns from `s` on and before `e`; there are no columns before the
first. -/
def punched (line : Str) (s e : Int) : Str := columns line (max 1 s).toNat (max 1 e).toNat

/-- Field `i` of a card runs from its column up to the column of the next field; the last one up to
the width. -/
def FieldIs (line : Str) (width : Int) (cols : List Int) (i : Nat) (f : Str) : Prop :=
  ∃ s e, cols[i]? = some s ∧
    (cols[i + 1]? = some e ∨ (cols[i + 1]? = none ∧ e = width + 1)) ∧ Cut line (s - 1) (e - 1) f

/-- Of the first `k` names, `i` is the last one that is `name`. -/
def LastNamed (names : List Str) (k : Nat) (name : Str) (i : Nat) : Prop :=
  i < k ∧ names[i]? = some name ∧ ∀ j, i < j → j < k → names[j]? ≠ some name

/-- What a field of a card gives: None for a blank one, otherwise the text without white space
around. -/
def Entered (f : Str) : RVal → Prop
  | .none => Blank f
  | .str t => t ≠ [] ∧ Stripped f t
  | .int _ => False

/-- A name is that of one of the fields. -/
def Named (cols : List Int) (names : List Str) (name : Str) : Prop := name ∈ names.take cols.length

/-- The field called `column1` has P, R or L, and nothing else, in it. -/
def Marked (line : Str) (width : Int) (cols : List Int) (names : List Str) (x : Char) : Prop :=
  ∃ i f, LastNamed names cols.length (py "column1") i ∧ FieldIs line width cols i f ∧ Stripped f [x]

/-- The names an ARGUS card needs: `column1`, and `operation` unless there is P, R or L in
`column1`. -/
def Usable (line : Str) (width : Int) (cols : List Int) (names : List Str) : Prop :=
  Named cols names (py "column1") ∧
    (Named cols names (py "operation") ∨ Marked line width cols names 'P' ∨
      Marked line width cols names 'R' ∨ Marked line width cols names 'L')

end H800.Spec
