import Verif.Spec.Cards
import Verif.Model.Symbols

/-!
Vocabulary for statements about the symbol table built from source lines.
-/

namespace H800.Spec

/-- Column 8 of the line has a star. -/
def Starred (s : Src) : Prop := s.text[7]? = some '*'

/-- The label of a line: columns 9-19, except on P, R and L lines. -/
def HasLabel (s : Src) (l : Str) : Prop := ¬ PRL s.text ∧ IsEntry (columns s.text 9 20) (some l)

/-- The operation of a line: columns 20-32, except on P, R and L lines. -/
def HasOp (s : Src) (o : Str) : Prop := ¬ PRL s.text ∧ IsEntry (columns s.text 20 33) (some o)

/-- A SETLOC operation naming subsegment `sub`: the text between its first and second comma, or 0
without comma. -/
def SetLoc (o sub : Str) : Prop :=
  (∃ r, o = py "SETLOC" ++ r) ∧
  ((',' ∉ o ∧ sub = py "0") ∨
    ∃ p r q, o = p ++ ',' :: r ∧ ',' ∉ p ∧ BeforeFirst ',' r q ∧ Stripped q sub)

/-- Line `s` sets the subsegment to `sub`. -/
def Sets (s : Src) (sub : Str) : Prop := ¬ Starred s ∧ ∃ o, HasOp s o ∧ SetLoc o sub

/-- The subsegment in force at line `i` of the lines: set by the last SETLOC at or before it, or 1
if there is none. -/
def Current (out : List Src) (i : Nat) (sub : Str) : Prop :=
  (∃ j s, j ≤ i ∧ out[j]? = some s ∧ Sets s sub ∧
    ∀ k s', j < k → k ≤ i → out[k]? = some s' → ∀ sub', ¬ Sets s' sub') ∨
  (sub = py "1" ∧ ∀ k s', k ≤ i → out[k]? = some s' → ∀ sub', ¬ Sets s' sub')

/-- A well-formed label: no lower-case letters (`upper` is the identity), and either no comma, or
one of the prefixes B, F, S, Z, a comma and a tag without comma. Spaces do not count. -/
def GoodLabel (upper : Str → Str) (l tag tagtype : Str) : Prop :=
  upper (l.filter (· ≠ ' ')) = l.filter (· ≠ ' ') ∧ ',' ∉ tag ∧
  ((l.filter (· ≠ ' ') = tag ∧ tagtype = py " ") ∨
    ∃ c ∈ ['B', 'F', 'S', 'Z'], l.filter (· ≠ ' ') = c :: ',' :: tag ∧ tagtype = [c])

/-- A label that is in error: lower case, more than one comma, a prefix that is not one of B, F, L,
S, X, Z, or one of the unsupported prefixes L and X. -/
def BadLabel (upper : Str → Str) (l : Str) : Prop :=
  let s := l.filter (· ≠ ' ')
  upper s ≠ s ∨ 2 ≤ s.count ',' ∨
  ∃ p t, s = p ++ ',' :: t ∧ ',' ∉ p ∧ p ∉ [['B'], ['F'], ['S'], ['Z']]

/-- Line `s` is counted as an error. -/
def InError (upper : Str → Str) (s : Src) : Prop :=
  ¬ Starred s ∧ ∃ l, HasLabel s l ∧ (BadLabel upper l ∨ ∀ o, ¬ HasOp s o)

/-- The kind of a definition with operation `o`. -/
def kindOf (o : Str) : Str := if o = py "ASSIGN" then py "complex" else py "simple"

/-- Line `i` of the lines is a definition of `tag` with this tag type and kind, in subsegment
`sub`. -/
def DefinesAt (upper : Str → Str) (out : List Src) (i : Nat) (s : Src)
    (tag tagtype sub kind : Str) : Prop :=
  out[i]? = some s ∧ ¬ Starred s ∧ (∃ l, HasLabel s l ∧ GoodLabel upper l tag tagtype) ∧
  (∃ o, HasOp s o ∧ kind = kindOf o) ∧ Current out i sub

/-- The table has definition `e` under these four keys. -/
def Recorded (t : Symtab) (tag seg sub kind : Str) (e : SymEntry) : Prop :=
  ∃ d1 d2 d3, dget t tag = some d1 ∧ dget d1 seg = some d2 ∧ dget d2 sub = some d3 ∧
    dget d3 kind = some e

/-- The entry says what line `s` says. -/
def Describes (s : Src) (tagtype : Str) (e : SymEntry) : Prop :=
  e.file = some s.file ∧ e.line = s.num ∧ IsEntry (columns s.text 2 8) e.lognum ∧
  e.tagtype = tagtype ∧ e.card.text = s.text.filter (· ≠ '\n')

/-- Two EQUALS lines with the same three addresses. -/
def SameEquals (s s' : Src) : Prop :=
  HasOp s (py "EQUALS") ∧ HasOp s' (py "EQUALS") ∧
  ∀ p ∈ [(33, 47), (47, 61), (61, 76)], ∃ v,
    IsEntry (columns s.text p.1 p.2) v ∧ IsEntry (columns s'.text p.1 p.2) v

/-- A segment name that is not the name of a kind. -/
def PlainSeg (seg : Str) : Prop := seg ≠ py "simple" ∧ seg ≠ py "complex"

/-- No segment of the table has the name of a kind. -/
def PlainTable (t : Symtab) : Prop :=
  ∀ tag segs, dget t tag = some segs → ∀ seg subs, dget segs seg = some subs → PlainSeg seg

/-- The symbol has a definition of this kind somewhere. -/
def HasKind (t : Symtab) (symbol kind : Str) : Prop := ∃ seg sub e, Recorded t symbol seg sub kind e

/-- The least of the segments of a symbol. -/
def LeastSeg (t : Symtab) (symbol seg : Str) : Prop :=
  ∃ segs, dget t symbol = some segs ∧ (∃ v, dget segs seg = some v) ∧
    ∀ seg' v, dget segs seg' = some v → strLe seg seg' = true

/-- Strictly increasing. -/
def Increasing (l : List Str) : Prop := l.Pairwise fun a b => strLe a b = true ∧ a ≠ b

end H800.Spec
