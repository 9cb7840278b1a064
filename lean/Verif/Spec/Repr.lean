import Verif.Spec.Order

/-!
String literals of Python (language reference, 2.4.1), and what it means that values can be read off a
text.
-/

namespace H800.Spec

/-- The text is a hexadecimal numeral of this value, in lower case, perhaps with leading zeros. -/
inductive Hex : Str → Nat → Prop
  | nil : Hex [] 0
  | snoc {t : Str} {v d : Nat} {c : Char} :
      Hex t v → (py "0123456789abcdef")[d]? = some c → Hex (t ++ [c]) (16 * v + d)

/-- The text is the rest of a string literal, with its closing quote, for this string. -/
inductive Quoted (q : Char) : Str → Str → Prop
  | done : Quoted q [q] []
  | plain {c : Char} {t s : Str} :
      c ≠ q → c ≠ '\\' → c ≠ '\n' → c ≠ '\r' → Quoted q t s → Quoted q (c :: t) (c :: s)
  | escape {c v : Char} {t s : Str} :
      (c, v) ∈ [('\\', '\\'), ('\'', '\''), ('"', '"'), ('n', '\n'), ('r', '\r'), ('t', '\t')] →
      Quoted q t s → Quoted q ('\\' :: c :: t) (v :: s)
  | code {k : Char} {w : Nat} {h : Str} {c : Char} {t s : Str} :
      (k, w) ∈ [('x', 2), ('u', 4), ('U', 8)] → h.length = w → Hex h c.toNat →
      Quoted q t s → Quoted q ('\\' :: k :: (h ++ t)) (c :: s)

/-- The text is a string literal for this string. -/
def Literal (t s : Str) : Prop := ∃ q ∈ ['\'', '"'], ∃ b, t = q :: b ∧ Quoted q b s

/-! ### Messages of the symbol tools but for the cards in them -/

/-- A definition but for its card. -/
def bareEntry (e : SymEntry) : Option Str × Int × Option Str × Str :=
  (e.file, e.line, e.lognum, e.tagtype)

/-- Definitions by segment, subsegment and kind, but for their cards. -/
def bareDefs (d : Dict Str (Dict Str (Dict Str SymEntry))) :
    List (Str × List (Str × List (Str × Option Str × Int × Option Str × Str))) :=
  d.map fun p => (p.1, p.2.map fun q => (q.1, q.2.map fun r => (r.1, bareEntry r.2)))

/-- A message but for the cards in it. -/
inductive Bare where
  /-- An error: what is wrong, the label, file, line, log number, tag type; for a multiply-defined
  symbol the previous definitions and the operation. -/
  | error (err : SymErr) (label : Str) (file : Option Str) (line : Int) (lognum tagtype : Option Str)
      (prev : List (Str × Option Str × Int × Option Str × Str)) (command : Option Str)
  /-- The definitions that have been found. -/
  | defs (d : List (Str × List (Str × List (Str × Option Str × Int × Option Str × Str))))
  /-- A message without cards. -/
  | plain (m : SymMsg)

/-- What a message says but for the cards in it. -/
def bare : SymMsg → Bare
  | .diag d => .error d.err d.label d.file d.line d.lognum d.tagtype
      (d.prev.map fun r => (r.1, bareEntry r.2)) d.command
  | .found (.defs d) => .defs (bareDefs d)
  | m => .plain m

/-- A message about an error, or the number of errors; all others are results. -/
def isError : SymMsg → Bool
  | .matches_ _ _ => false
  | .found _ => false
  | .listing (.errors _) => true
  | .listing _ => false
  | _ => true

/-- The errors among the messages. -/
def errorsOf (out : List (VMsg SymMsg)) : List SymMsg := (out.filterMap usual).filter isError

/-- The messages of the symbol table among those of parse. -/
def symbolsOf (out : List (VMsg ParseMsg)) : List SymMsg :=
  (out.filterMap usual).filterMap Sum.getLeft?

/-- All else that is printed: what the option `--verbose` adds, and results. -/
def resultsOf (out : List (VMsg SymMsg)) : List (Extra ⊕ Bare) :=
  (out.map told).filterMap fun
    | .inl x => some (.inl x)
    | .inr m => if isError m then none else some (.inr (bare m))

open Classical in
/-- The lines in error of the files are at the same places and have the same faults and labels. -/
def SameFaults (upper upper' : Str → Str) (srcs srcs' : List (Str × List Src)) : Prop :=
  List.Forall₂ (fun s s' => s.file = s'.file ∧ s.num = s'.num ∧
      ∀ e l, Fault upper s e l ↔ Fault upper' s' e l)
    ((srcs.flatMap (·.2)).filter fun s => decide (InError upper s))
    ((srcs'.flatMap (·.2)).filter fun s => decide (InError upper' s))

/-- If a text starts with something written in the one way and with something written in the other,
then they show the same, and they end at the same place. -/
def Readable {α β : Type} (text text' : α → Str) (shown : α → β) : Prop :=
  ∀ a b s t, text a ++ s = text' b ++ t → shown a = shown b ∧ s = t

end H800.Spec
