import Verif.Spec.Marks
import Verif.Spec.Tables
/-!
# Specification: the order of combining characters
-/

namespace GoTable.Spec

/-- Neighbouring combining characters are exchanged, any number of times. The canonical ordering of the Unicode standard,
section 3.11, is of this kind: it exchanges neighbours of different classes. -/
inductive Reordered : List Nat → List Nat → Prop
  | refl (rs : List Nat) : Reordered rs rs
  | swap {rs : List Nat} (u : List Nat) (a b : Nat) (v : List Nat) (h : Reordered rs (u ++ a :: b :: v))
      (ha : InIntervals a marks) (hb : InIntervals b marks) : Reordered rs (u ++ b :: a :: v)

/-- The combining characters that alone take two cells: tone marks and reading marks. -/
def doubleMarks : List (Nat × Nat) := [(0x302A, 0x302F), (0x16FF0, 0x16FF1)]

end GoTable.Spec
