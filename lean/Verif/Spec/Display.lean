import Verif.Spec.Repr
import Verif.Spec.Text
import Verif.Spec.Messages

/-!
How Python 3 writes values (`repr`; library reference on `repr`, `str.isprintable` and the escapes of
string literals): None, integers, strings, lists, dicts, and objects of a class without a `__repr__`.
-/

namespace H800.Spec

/-- Values of Python. -/
inductive Val where
  | none
  | int (n : Int)
  | str (s : Str)
  | list (l : List Val)
  /-- A dict with strings as its keys. -/
  | dict (keys : List Str) (values : List Val)
  | object (cls : Str) (address : Nat)

/-- The character stands for itself in a string unless it is a quote or a backslash. -/
def Visible (printable : Char → Bool) (c : Char) : Prop :=
  (' '.toNat ≤ c.toNat ∧ c.toNat ≤ '~'.toNat) ∨ (128 ≤ c.toNat ∧ printable c = true)

/-- How a character is written between quotes `q`. -/
inductive CharText (printable : Char → Bool) (q : Char) : Char → Str → Prop
  | itself {c : Char} : Visible printable c → c ≠ q → c ≠ '\\' → CharText printable q c [c]
  | escaped {c : Char} : c = q ∨ c = '\\' → CharText printable q c ['\\', c]
  | letter {c e : Char} : (c, e) ∈ [('\t', 't'), ('\n', 'n'), ('\r', 'r')] →
      CharText printable q c ['\\', e]
  | code {c k : Char} {least w : Nat} {h : Str} :
      ¬ Visible printable c → c ∉ ['\t', '\n', '\r'] →
      (k, least, w) ∈ [('x', 0, 2), ('u', 256, 4), ('U', 65536, 8)] →
      least ≤ c.toNat → (c.toNat < 16 ^ w) → h.length = w → Hex h c.toNat →
      CharText printable q c ('\\' :: k :: h)

/-- How a string is written: between single quotes, or between double ones if there are single but no
double ones in it. -/
def StrText (printable : Char → Bool) (s t : Str) : Prop :=
  ∃ q ts, (('\'' ∈ s ∧ '"' ∉ s → q = '"') ∧ (¬ ('\'' ∈ s ∧ '"' ∉ s) → q = '\'')) ∧
    List.Forall₂ (CharText printable q) s ts ∧ t = q :: (ts.flatten ++ [q])

/-- How a value is written. -/
inductive Display (printable : Char → Bool) : Val → Str → Prop
  | none : Display printable .none (py "None")
  | int {n : Int} {t : Str} : Shortest n t → Display printable (.int n) t
  | str {s t : Str} : StrText printable s t → Display printable (.str s) t
  | list {l : List Val} {ts : List Str} : List.Forall₂ (Display printable) l ts →
      Display printable (.list l) (py "[" ++ List.intercalate (py ", ") ts ++ py "]")
  | dict {keys : List Str} {values : List Val} {ks vs : List Str} :
      List.Forall₂ (StrText printable) keys ks → List.Forall₂ (Display printable) values vs →
      Display printable (.dict keys values)
        (py "{" ++ List.intercalate (py ", ") (List.zipWith (fun k v => k ++ py ": " ++ v) ks vs) ++
          py "}")
  | object {cls : Str} {address : Nat} {h : Str} :
      h ≠ [] → Hex h address → (∀ t, t ≠ [] → Hex t address → h.length ≤ t.length) →
      Display printable (.object cls address)
        (py "<" ++ cls ++ py " object at 0x" ++ h ++ py ">")

/-- None or a string. -/
def optVal : Option Str → Val
  | none => .none
  | some s => .str s

/-- A definition of a symbol: where it is, its log number and tag type, and its card. -/
def defVal (addr : CodeCard → Nat) (file : Option Str) (line : Int) (lognum tagtype : Option Str)
    (card : CodeCard) : Val :=
  .dict [py "file", py "line", py "lognum", py "tagtype", py "card"]
    [optVal file, .int line, optVal lognum, optVal tagtype,
      .object (py "h800.arguscard.Card") (addr card)]

/-- The definitions of a symbol by kind. -/
def kindsVal (addr : CodeCard → Nat) (d : Dict Str SymEntry) : Val :=
  .dict (d.map (·.1))
    (d.map fun r => defVal addr r.2.file r.2.line r.2.lognum (some r.2.tagtype) r.2.card)

/-- What has been found. -/
def foundVal (addr : CodeCard → Nat) : Found → Val
  | .nothing => .none
  | .names l => .list (l.map .str)
  | .defs d => .dict (d.map (·.1)) (d.map fun p =>
      .dict (p.2.map (·.1)) (p.2.map fun q => kindsVal addr q.2))

/-- The sentence about a symbol that is in error. -/
inductive Sentence (label : Str) : SymErr → Str → Prop
  | case : Sentence label .case (py "Symbol " ++ label ++ py " is ill-formed (case)!")
  | commas : Sentence label .commas (py "Symbol " ++ label ++ py " is illegal, too many commas!")
  | tagPrefix : Sentence label .tagPrefix (py "Symbol " ++ label ++ py " is ill-formed (tag prefix)!")
  | unsupported : Sentence label .unsupported
      (py "Symbol " ++ label ++ py " has unsupported tag prefix!")
  | noOperation : Sentence label .noOperation (py "Symbol " ++ label ++ py " has no operation!")
  | multiple : Sentence label .multiple (py "Symbol " ++ label ++ py " is multiply-defined!")

end H800.Spec
