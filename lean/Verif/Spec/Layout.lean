import Verif.Spec.Tools

/-!
The layout of a symbol listing: the headings that stand above each definition.
-/

namespace H800.Spec

/-- The headings above a definition that follows `p`: those of the levels that change, and of all
levels below. -/
def headings (p : Option Row) (r : Row) : List ListLine :=
  match p with
  | none => [.sym r.tag, .seg r.seg, .sub r.sub]
  | some q =>
    if q.tag ≠ r.tag then [.sym r.tag, .seg r.seg, .sub r.sub]
    else if q.seg ≠ r.seg then [.seg r.seg, .sub r.sub]
    else if q.sub ≠ r.sub then [.sub r.sub]
    else []

/-- The definitions with their headings, after a definition `p` if there is one. -/
def layout (p : Option Row) : List Row → List ListLine
  | [] => []
  | r :: rs => headings p r ++ .entry r.kind r.tagtype r.file r.line r.card :: layout (some r) rs

end H800.Spec
