/-!
# Specification: interval tables
-/

namespace GoTable.Spec

/-- A code point lies in one of the intervals of a table. -/
def InIntervals (r : Nat) (t : List (Nat × Nat)) : Prop := ∃ e ∈ t, e.1 ≤ r ∧ r ≤ e.2

/-- Intervals are non-empty, in increasing order and pairwise disjoint. -/
def SortedIntervals (t : List (Nat × Nat)) : Prop :=
  (∀ e ∈ t, e.1 ≤ e.2) ∧ t.Pairwise (fun a b => a.2 < b.1)

instance (r : Nat) (t : List (Nat × Nat)) : Decidable (InIntervals r t) := by
  unfold InIntervals; infer_instance

end GoTable.Spec
