import Verif.Spec.Iteration
import Verif.Spec.RuneWidth
/-!
# Specification: the pieces of a text and their widths
-/

namespace GoTable.Spec

/-- The pieces of a text: none empty, and cut exactly where UAX #29 has a boundary. -/
structure Pieces (rs : List Nat) (cs : List (List Nat)) : Prop where
  all : cs.flatten = rs
  nonempty : ∀ c ∈ cs, c ≠ []
  cuts : ∀ i, 0 < i → (hi : i < rs.length) → ((∃ j, (cs.take j).flatten = rs.take i) ↔ BoundaryAt rs i hi)

/-- The width of a piece: that of its first code point whose width is not 0, if there is one. -/
def pieceWidth (f : Flags) (c : List Nat) : Nat :=
  ((c.map fun r : Nat => plainWidth f (r : Int)).find? (· ≠ 0)).getD 0

end GoTable.Spec
