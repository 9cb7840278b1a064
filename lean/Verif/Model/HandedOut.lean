import Verif.Model.Cards

/-!
Decks as objects. The properties of decks and cards return the lists and dicts that the objects hold, so a
caller can change these. The lists `_fields`, `_strippedFields` and `_records` of a deck hold the same
objects as its cards do (punchcard.py 149-155), and `_lines` is the list given to the constructor, if the
deck is made from one (line 139).

Simplifications: what a caller does to a list or dict is any function on its contents; objects of the
caller in the lists of a deck are not told apart, and positions are counted from the start.
-/

namespace H800

/-- A deck and the objects it holds. -/
structure DeckObj where
  /-- the cards that the constructor makes, each with its layout, its two lists and its dict -/
  heap : List PunchCard
  /-- the list that the caller has given -/
  given : List Str
  /-- `_lines`, if it is not the list that the caller has given -/
  own : Option (List Str)
  /-- `_cards`: which cards, `none` being an object of the caller -/
  cards : List (Option Nat)
  /-- `_fields`: of which cards -/
  fields : List (Option Nat)
  /-- `_strippedFields`: of which cards -/
  strippedFields : List (Option Nat)
  /-- `_records`: of which cards -/
  records : List (Option Nat)

/-- What a card hands out (punchcard.py 85-99), and what is done to it. -/
inductive CardPart where
  /-- `layout` -/
  | layout (f : List (Int × Int) → List (Int × Int))
  /-- `fields` -/
  | fields (f : List Str → List Str)
  /-- `strippedFields` -/
  | stripped (f : List (Option Str) → List (Option Str))
  /-- `record` -/
  | record (f : Dict Str RVal → Dict Str RVal)

/-- A change of a list or dict of a card. -/
def CardPart.change : CardPart → PunchCard → PunchCard
  | .layout f, c => { c with layout := f c.layout }
  | .fields f, c => { c with body := c.body.map fun b => { b with fields := f b.fields } }
  | .stripped f, c => { c with body := c.body.map fun b => { b with stripped := f b.stripped } }
  | .record f, c => { c with body := c.body.map fun b => { b with record := f b.record } }

/-- What a caller does with what a deck hands out. -/
inductive DeckOp where
  /-- the list given to the constructor is changed -/
  | given (f : List Str → List Str)
  /-- `deck.lines` is changed (157-159) -/
  | lines (f : List Str → List Str)
  /-- `deck.cards` is changed (161-163) -/
  | cards (f : List (Option Nat) → List (Option Nat))
  /-- `deck.fields` is changed (165-167) -/
  | fields (f : List (Option Nat) → List (Option Nat))
  /-- `deck.strippedFields` is changed (169-171) -/
  | strippedFields (f : List (Option Nat) → List (Option Nat))
  /-- `deck.records` is changed (173-175) -/
  | records (f : List (Option Nat) → List (Option Nat))
  /-- what `deck.cards[i]` hands out is changed -/
  | card (i : Nat) (p : CardPart)
  /-- `deck.fields[i]`, `deck.strippedFields[i]` or `deck.records[i]` is changed -/
  | listed (i : Nat) (p : CardPart)

namespace DeckObj

/-- punchcard.py 126-155: the object that the constructor makes, of the deck `d` of `Deck.init`. -/
def make (lines : Option (List Str)) (file : Option Str) (d : Deck) : DeckObj :=
  let refs := (List.range d.cards.length).map some
  match file with
  | some (_ :: _) => ⟨d.cards, lines.getD [], some d.lines, refs, refs, refs, refs⟩
  | _ => ⟨d.cards, d.lines, none, refs, refs, refs, refs⟩

/-- punchcard.py 157-159: `deck.lines` -/
def lines (s : DeckObj) : List Str := s.own.getD s.given

/-- The card a reference stands for. -/
def deref (s : DeckObj) (r : Option (Option Nat)) : Option PunchCard := r.join.bind (s.heap[·]?)

/-- punchcard.py 161-163: `deck.cards[i]` -/
def cardAt (s : DeckObj) (i : Nat) : Option PunchCard := s.deref s.cards[i]?

/-- punchcard.py 165-167: `deck.fields[i]` -/
def fieldsAt (s : DeckObj) (i : Nat) : Option (List Str) :=
  (s.deref s.fields[i]?).bind fun c => c.body.map (·.fields)

/-- punchcard.py 169-171: `deck.strippedFields[i]` -/
def strippedAt (s : DeckObj) (i : Nat) : Option (List (Option Str)) :=
  (s.deref s.strippedFields[i]?).bind fun c => c.body.map (·.stripped)

/-- punchcard.py 173-175: `deck.records[i]` -/
def recordAt (s : DeckObj) (i : Nat) : Option (Dict Str RVal) :=
  (s.deref s.records[i]?).bind fun c => c.body.map (·.record)

/-- punchcard.py 177-181: `str(deck)`; nothing, if there are objects of the caller. -/
def toStr (s : DeckObj) : Option Str := do
  let cards ← s.cards.mapM fun r => s.deref (some r)
  return joinWith '\n' (cards.map PunchCard.toStr)

/-- A change of an object that a card holds. -/
def changeAt (s : DeckObj) (r : Option (Option Nat)) (p : CardPart) : DeckObj :=
  match r with
  | some (some j) => { s with heap := s.heap.modify j p.change }
  | _ => s

/-- One change. -/
def step (s : DeckObj) : DeckOp → DeckObj
  | .given f => { s with given := f s.given }
  | .lines f =>
    match s.own with
    | some l => { s with own := some (f l) }
    | none => { s with given := f s.given }
  | .cards f => { s with cards := f s.cards }
  | .fields f => { s with fields := f s.fields }
  | .strippedFields f => { s with strippedFields := f s.strippedFields }
  | .records f => { s with records := f s.records }
  | .card i p => s.changeAt s.cards[i]? p
  | .listed i p =>
    match p with
    | .layout _ => s
    | .fields _ => s.changeAt s.fields[i]? p
    | .stripped _ => s.changeAt s.strippedFields[i]? p
    | .record _ => s.changeAt s.records[i]? p

/-- Changes one after the other. -/
def run (s : DeckObj) (ops : List DeckOp) : DeckObj := ops.foldl step s

end DeckObj

end H800
