import Verif.Spec.Tools

/-!
Vocabulary for statements about files of any name, also such whose segment is named "simple" or
"complex".
-/

namespace H800.Spec

/-- The table knows the tag in this segment. -/
def HasSeg (t : Symtab) (tag seg : Str) : Prop :=
  ∃ segs subs, dget t tag = some segs ∧ dget segs seg = some subs

/-- The table knows the tag in this segment and subsegment. -/
def HasSub (t : Symtab) (tag seg sub : Str) : Prop :=
  ∃ segs subs kinds, dget t tag = some segs ∧ dget segs seg = some subs ∧ dget subs sub = some kinds

/-- When line `i` of a file of segment `seg` is reached, the tag is known in segment `seg'`: from the
table before, or from a line before. -/
def KnownSeg (upper : Str → Str) (t : Symtab) (seg : Str) (out : List Src) (i : Nat)
    (tag seg' : Str) : Prop :=
  HasSeg t tag seg' ∨
    (seg' = seg ∧ ∃ j s tt sub kind, j < i ∧ DefinesAt upper out j s tag tt sub kind)

/-- When line `i` of a file of segment `seg` is reached, the tag is known in subsegment `sub` of segment
`seg'`. -/
def KnownSub (upper : Str → Str) (t : Symtab) (seg : Str) (out : List Src) (i : Nat)
    (tag seg' sub : Str) : Prop :=
  HasSub t tag seg' sub ∨
    (seg' = seg ∧ ∃ j s tt kind, j < i ∧ DefinesAt upper out j s tag tt sub kind)

/-- Line `i` is a definition of a tag that is already known in its segment and subsegment, and also in
a segment named like the kind of the definition. -/
def Taken (upper : Str → Str) (t : Symtab) (seg : Str) (out : List Src) (i : Nat) : Prop :=
  ∃ s tag tt sub kind, DefinesAt upper out i s tag tt sub kind ∧
    KnownSub upper t seg out i tag seg sub ∧ KnownSeg upper t seg out i tag kind

/-- Line `i` is taken and its operation is EQUALS. -/
def TakenEquals (upper : Str → Str) (t : Symtab) (seg : Str) (out : List Src) (i : Nat) : Prop :=
  Taken upper t seg out i ∧ ∃ s, out[i]? = some s ∧ HasOp s (py "EQUALS")

/-- Line `i'` of file `k'` is read before line `i` of file `k`. -/
def Earlier (k' i' k i : Nat) : Prop := k' < k ∨ k' = k ∧ i' < i

/-- Line `i` of the `k`-th file is a definition of a tag that an earlier line defines in the same
segment and subsegment, and an earlier line in a segment named like the kind of the definition. -/
def TakenIn (upper : Str → Str) (srcs : List (Str × List Src)) (k i : Nat) : Prop :=
  ∃ s tag tt seg sub kind, DefinedIn upper srcs k i s tag tt seg sub kind ∧
    (∃ k' i' s' tt' kind', Earlier k' i' k i ∧
      DefinedIn upper srcs k' i' s' tag tt' seg sub kind') ∧
    (∃ k' i' s' tt' sub' kind', Earlier k' i' k i ∧
      DefinedIn upper srcs k' i' s' tag tt' kind sub' kind')

/-- Line `i` of the `k`-th file is such a line, and its operation is EQUALS. -/
def StopsAt (upper : Str → Str) (srcs : List (Str × List Src)) (k i : Nat) : Prop :=
  TakenIn upper srcs k i ∧ ∃ file out s, srcs[k]? = some (file, out) ∧ out[i]? = some s ∧
    HasOp s (py "EQUALS")

/-- The line is a definition that is not taken, and all later ones of the tag in the same segment and
subsegment and with the same kind are taken. -/
def KeptDef (upper : Str → Str) (srcs : List (Str × List Src)) (k i : Nat) (s : Src)
    (tag tagtype seg sub kind : Str) : Prop :=
  DefinedIn upper srcs k i s tag tagtype seg sub kind ∧ ¬ TakenIn upper srcs k i ∧
  ∀ k' i' s' tt', Earlier k i k' i' → DefinedIn upper srcs k' i' s' tag tt' seg sub kind →
    TakenIn upper srcs k' i'

end H800.Spec
