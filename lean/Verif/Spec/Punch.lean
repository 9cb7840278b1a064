import Verif.Spec.Cards

/-!
Vocabulary for punching a card: the columns where fields of given widths start, and padded text.
-/

namespace H800.Spec

/-- The start columns of consecutive fields of the given widths, the first at column `c`. -/
def starts (c : Nat) : List Nat → List Int
  | [] => []
  | w :: ws => (c : Int) :: starts (c + w) ws

/-- Text left-justified in a field of width `w`. -/
def justified (w : Nat) (s : Str) : Str := s ++ List.replicate (w - s.length) ' '

/-- What a card is expected to show for a field punched with `s`. -/
def shown (s : Str) : Option Str := if s = [] then none else some s

/-- The widths of the ten fields of an ARGUS card. -/
def argusWidths : List Nat := [1, 6, 1, 11, 13, 14, 14, 15, 5, 40]

end H800.Spec
