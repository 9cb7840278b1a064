import Verif.Model.Cards

/-!
Vocabulary for comparing the cards of two decks.
-/

namespace H800.Spec

/-- Two records agree except perhaps on the line number. -/
def SameRecord (r r' : Dict Str RVal) : Prop := ∀ k, k ≠ py "linenum" → dget r k = dget r' k

/-- Two decks have the same cards: texts, stripped fields and records, apart from where the cards
come from. -/
def SameCards (d d' : Deck) : Prop :=
  d.cards.map (·.line) = d'.cards.map (·.line) ∧ d.strippedFields = d'.strippedFields ∧
    List.Forall₂ SameRecord d.records d'.records

end H800.Spec
