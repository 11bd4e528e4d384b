/-!
# Specification: lists of ranges
-/

namespace GoTable.Spec

/-- `r` lies in one of the ranges. -/
def Within (l : List (Nat × Nat)) (r : Nat) : Prop := ∃ p ∈ l, p.1 ≤ r ∧ r ≤ p.2

/-- No range is empty. -/
def NonEmptyRanges (l : List (Nat × Nat)) : Prop := ∀ p ∈ l, p.1 ≤ p.2

/-- Neighbours `a`, `b` of the list are related by `R`. -/
def Neighbours (R : Nat × Nat → Nat × Nat → Prop) : List (Nat × Nat) → Prop
  | a :: b :: l => R a b ∧ Neighbours R (b :: l)
  | _ => True

/-- Sorted and disjoint. -/
def SortedRanges (l : List (Nat × Nat)) : Prop := Neighbours (fun a b => a.2 < b.1) l

/-- No range ends right before the next begins. -/
def NoneAdjacent (l : List (Nat × Nat)) : Prop := Neighbours (fun a b => a.2 + 1 ≠ b.1) l

/-- The same ranges, with signed numbers for bounds. -/
def signedRanges (l : List (Nat × Nat)) : List (Int × Int) := l.map fun p => ((p.1 : Int), (p.2 : Int))

instance decNeighbours (R : Nat × Nat → Nat × Nat → Prop) [DecidableRel R] :
    (l : List (Nat × Nat)) → Decidable (Neighbours R l)
  | [] => .isTrue trivial
  | [_] => .isTrue trivial
  | a :: b :: l => @instDecidableAnd (R a b) (Neighbours R (b :: l)) _ (decNeighbours R (b :: l))

instance (l : List (Nat × Nat)) : Decidable (SortedRanges l) := by unfold SortedRanges; infer_instance
instance (l : List (Nat × Nat)) : Decidable (NoneAdjacent l) := by unfold NoneAdjacent; infer_instance
instance (l : List (Nat × Nat)) : Decidable (NonEmptyRanges l) := by unfold NonEmptyRanges; infer_instance

end GoTable.Spec
