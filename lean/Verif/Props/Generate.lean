import Verif.Proofs.Generate
import Verif.Model.RuneWidth
/-!
# C44: the table generator's compaction of ranges
-/

namespace GoTable
open Spec

/-- C44, for every list of non-empty ranges of runes, sorted or not: compaction keeps exactly the same code
points and leaves no range ending right before the next begins; a sorted list stays sorted. -/
theorem C44_compaction (l : List (Nat × Nat)) (h : NonEmptyRanges l) (hr : ∀ p ∈ l, p.2 < 2 ^ 31) :
    ∃ m, shapeup (signedRanges l) = signedRanges m ∧ (∀ r, Within m r ↔ Within l r) ∧ NoneAdjacent m ∧
      NonEmptyRanges m ∧ (SortedRanges l → SortedRanges m) :=
  ⟨compact l, shapeup_eq l fun p hp => ⟨Nat.lt_of_le_of_lt (h p hp) (hr p hp), hr p hp⟩, compact_within l h,
    compact_noneAdjacent l, compact_nonEmpty l h, compact_sorted l⟩

/-- C44, canonical form: of all sorted lists of non-empty ranges with the code points of a sorted list
and no two neighbours adjacent, compaction finds the only one. -/
theorem C44_canonical (l m : List (Nat × Nat)) (h1 : NonEmptyRanges l) (h2 : SortedRanges l) (hr : ∀ p ∈ l, p.2 < 2 ^ 31)
    (hm1 : NonEmptyRanges m) (hm2 : SortedRanges m) (hm3 : NoneAdjacent m)
    (h : ∀ r, Within l r ↔ Within m r) : shapeup (signedRanges l) = signedRanges m := by
  rw [shapeup_eq l fun p hp => ⟨Nat.lt_of_le_of_lt (h1 p hp) (hr p hp), hr p hp⟩]
  exact congrArg _ (canonical _ _ (compact_nonEmpty l h1) (compact_sorted l h2) (compact_noneAdjacent l) hm1 hm2 hm3
    fun r => (compact_within l h1 r).trans (h r))

/-- Five ranges become two. -/
example : shapeup (signedRanges [(0x300, 0x36F), (0x370, 0x370), (0x371, 0x380), (0x390, 0x39F), (0x3A0, 0x3A0)])
    = signedRanges [(0x300, 0x380), (0x390, 0x3A0)] := by
  refine C44_canonical _ _ (by decide) (by decide) (by decide) (by decide) (by decide) (by decide) ?_
  intro r
  simp only [Within, List.mem_cons, exists_eq_or_imp, List.not_mem_nil, or_false, exists_eq_left]
  omega

/-- C44, the shipped tables: all six generated tables are sorted and compacted, so generating them
again from their own ranges changes nothing. -/
theorem C44_shipped_tables : ∀ t ∈ [combining, doublewidth, ambiguous, narrow, neutral, emoji],
    SortedRanges t ∧ NonEmptyRanges t ∧ shapeup (signedRanges t) = signedRanges t := by
  have h : ∀ t ∈ [combining, doublewidth, ambiguous, narrow, neutral, emoji],
      SortedRanges t ∧ NonEmptyRanges t ∧ NoneAdjacent t ∧ ∀ p ∈ t, p.2 < 2 ^ 31 := by decide +kernel
  intro t ht
  obtain ⟨h1, h2, h3, h4⟩ := h t ht
  exact ⟨h1, h2, C44_canonical t t h2 h1 h4 h2 h1 h3 fun _ => Iff.rfl⟩

end GoTable
