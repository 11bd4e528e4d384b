import Verif.Model.Grapheme
import Verif.Spec.Tables
import Mathlib.Tactic.ByContra
/-! Binary search over sorted interval tables; facts about the shipped tables. -/

namespace GoTable
open Spec

/-- Linear-time sortedness check. -/
def sortedB : List (Nat × Nat) → Bool
  | [] => true
  | [a] => decide (a.1 ≤ a.2)
  | a :: b :: t => decide (a.1 ≤ a.2) && decide (a.2 < b.1) && sortedB (b :: t)

theorem sortedB_sound (t : List (Nat × Nat)) (h : sortedB t = true) : SortedIntervals t := by
  induction t with
  | nil => simp [SortedIntervals]
  | cons a t ih =>
    cases t with
    | nil => simpa [sortedB, SortedIntervals] using h
    | cons b t =>
      simp only [sortedB, Bool.and_eq_true, decide_eq_true_eq] at h
      obtain ⟨⟨h1, h2⟩, h3⟩ := h
      obtain ⟨i1, i2⟩ := ih h3
      refine ⟨?_, ?_⟩
      · intro e he
        rcases List.mem_cons.mp he with rfl | he
        · exact h1
        · exact i1 e he
      · rw [List.pairwise_cons]
        refine ⟨?_, i2⟩
        intro e he
        rcases List.mem_cons.mp he with rfl | he
        · exact h2
        · have hb := (List.pairwise_cons.mp i2).1 e he
          have hb2 := i1 b (by simp)
          omega

theorem sorted_getElem {t : List (Nat × Nat)} (h : SortedIntervals t) (i j : Nat) (hij : i < j)
    (hj : j < t.length) : (t[i]'(by omega)).2 < (t[j]).1 := by
  exact (List.pairwise_iff_getElem.mp h.2) i j (by omega) hj hij

theorem inTableLoop_correct (t : IntervalTable) (hs : SortedIntervals t) (r : Nat) (bot top : Int)
    (hb : 0 ≤ bot) (ht : top < t.length)
    (hlo : ∀ i (hi : i < t.length), (i : Int) < bot → (t[i]).2 < r)
    (hhi : ∀ i (hi : i < t.length), top < (i : Int) → r < (t[i]).1) :
    inTableLoop t r bot top hb ht = true ↔ InIntervals r t := by
  fun_induction inTableLoop t r bot top hb ht with
  | case1 bot top hb ht hle mid e hlt ih =>
    have hlt' : (t[mid.toNat]'(by omega)).2 < r := hlt
    apply ih
    · intro i hi hlt'
      rcases Nat.lt_trichotomy i mid.toNat with h | h | h
      · have := sorted_getElem hs i mid.toNat h (by omega)
        have := hs.1 _ (List.getElem_mem (show mid.toNat < t.length by omega))
        omega
      · subst h; exact hlt
      · omega
    · intro i hi h; exact hhi i hi h
  | case2 bot top hb ht hle mid e hge hlt ih =>
    have hlt' : r < (t[mid.toNat]'(by omega)).1 := by
      have : e.1 > r := hlt
      exact this
    apply ih
    · intro i hi h; exact hlo i hi h
    · intro i hi hlt'
      rcases Nat.lt_trichotomy i mid.toNat with h | h | h
      · omega
      · subst h; exact hlt
      · have := sorted_getElem hs mid.toNat i h hi
        have := hs.1 _ (List.getElem_mem (show mid.toNat < t.length by omega))
        omega
  | case3 bot top hb ht hle mid e hge hge2 =>
    simp only [true_iff]
    exact ⟨e, List.getElem_mem _, by omega, by omega⟩
  | case4 bot top hb ht hgt =>
    simp only [Bool.false_eq_true, false_iff]
    rintro ⟨e, he, h1, h2⟩
    obtain ⟨i, hi, rfl⟩ := List.getElem_of_mem he
    by_cases h : (i : Int) < bot
    · have := hlo i hi h; omega
    · have := hhi i hi (by omega); omega

theorem inTable_correct (t : IntervalTable) (hs : SortedIntervals t) (r : Nat) :
    inTable r t = true ↔ InIntervals r t := by
  unfold inTable
  cases t with
  | nil => simp [InIntervals]
  | cons e es =>
    dsimp only
    split
    · rename_i h
      simp only [Bool.false_eq_true, false_iff]
      rintro ⟨x, hx, h1, h2⟩
      rcases List.mem_cons.mp hx with rfl | hx
      · omega
      · have := (List.pairwise_cons.mp hs.2).1 x hx
        have := hs.1 e (by simp)
        omega
    · apply inTableLoop_correct _ hs
      · intro i hi h; omega
      · intro i hi h; simp at hi h; omega

/-- The interval part of a property table. -/
def ranges (d : List (Nat × Nat × Nat)) : List (Nat × Nat) := d.map fun e => (e.1, e.2.1)

theorem propertySearchLoop_correct (d : List (Nat × Nat × Nat)) (hs : SortedIntervals (ranges d))
    (r : Nat) (lo hi : Nat) (h : hi ≤ d.length)
    (hlo : ∀ i (hi : i < d.length), i < lo → (d[i]).2.1 < r)
    (hhi : ∀ i (hi' : i < d.length), hi ≤ i → r < (d[i]).1) :
    (∃ e ∈ d, e.1 ≤ r ∧ r ≤ e.2.1 ∧ propertySearchLoop d r lo hi h = e) ∨
    ((∀ e ∈ d, ¬ (e.1 ≤ r ∧ r ≤ e.2.1)) ∧ propertySearchLoop d r lo hi h = (0, 0, 0)) := by
  have hsort : ∀ i j (hij : i < j) (hj : j < d.length), (d[i]'(by omega)).2.1 < (d[j]).1 := by
    intro i j hij hj
    have := sorted_getElem hs i j hij (by simpa [ranges] using hj)
    simpa [ranges] using this
  have hne : ∀ i (hi : i < d.length), (d[i]).1 ≤ (d[i]).2.1 := by
    intro i hi
    have := hs.1 ((d[i]).1, (d[i]).2.1) (by
      simp only [ranges, List.mem_map]
      exact ⟨d[i], List.getElem_mem _, rfl⟩)
    simpa using this
  fun_induction propertySearchLoop d r lo hi h with
  | case1 lo hi h hlt mid e hr ih =>
    have hr' : r < (d[mid]'(by omega)).1 := hr
    refine ih hlo ?_ hsort
    intro i hi' hle
    rcases Nat.lt_trichotomy i mid with h | h | h
    · omega
    · subst h; exact hr
    · have := hsort mid i h hi'
      have := hne mid (by omega)
      omega
  | case2 lo hi h hlt mid e hr hr2 ih =>
    have hr' : (d[mid]'(by omega)).2.1 < r := hr2
    refine ih ?_ hhi hsort
    intro i hi' hle
    rcases Nat.lt_trichotomy i mid with h | h | h
    · have := hsort i mid h (by omega)
      have := hne mid (by omega)
      omega
    · subst h; exact hr2
    · omega
  | case3 lo hi h hlt mid e hr hr2 =>
    left
    exact ⟨e, List.getElem_mem _, by omega, by omega, rfl⟩
  | case4 lo hi h hge =>
    right
    refine ⟨?_, rfl⟩
    rintro e he ⟨h1, h2⟩
    obtain ⟨i, hi', rfl⟩ := List.getElem_of_mem he
    by_cases hl : i < lo
    · have := hlo i hi' hl; omega
    · have := hhi i hi' (by omega); omega

theorem propertySearch_correct (d : List (Nat × Nat × Nat)) (hs : SortedIntervals (ranges d)) (r : Nat) :
    (∃ e ∈ d, e.1 ≤ r ∧ r ≤ e.2.1 ∧ propertySearch d r = e) ∨
    ((∀ e ∈ d, ¬ (e.1 ≤ r ∧ r ≤ e.2.1)) ∧ propertySearch d r = (0, 0, 0)) := by
  unfold propertySearch
  apply propertySearchLoop_correct d hs
  · intro i hi h; omega
  · intro i hi h; omega

/-! ## The shipped tables -/

theorem combining_sorted : SortedIntervals combining := sortedB_sound _ (by decide +kernel)
theorem doublewidth_sorted : SortedIntervals doublewidth := sortedB_sound _ (by decide +kernel)
theorem ambiguous_sorted : SortedIntervals ambiguous := sortedB_sound _ (by decide +kernel)
theorem narrow_sorted : SortedIntervals narrow := sortedB_sound _ (by decide +kernel)
theorem neutral_sorted : SortedIntervals neutral := sortedB_sound _ (by decide +kernel)
theorem emoji_sorted : SortedIntervals emoji := sortedB_sound _ (by decide +kernel)
theorem privateUse_sorted : SortedIntervals privateUse := sortedB_sound _ (by decide +kernel)
theorem nonprint_sorted : SortedIntervals nonprint := sortedB_sound _ (by decide +kernel)
theorem graphemeCodePoints_sorted : SortedIntervals (ranges graphemeCodePoints) :=
  sortedB_sound _ (by decide +kernel)
theorem eastAsianWidth_sorted : SortedIntervals (ranges eastAsianWidth) :=
  sortedB_sound _ (by decide +kernel)
theorem emojiPresentation_sorted : SortedIntervals (ranges emojiPresentation) :=
  sortedB_sound _ (by decide +kernel)

/-- Two interval lists have no common point: checked pairwise. -/
def disjointB (a b : List (Nat × Nat)) : Bool :=
  a.all fun x => b.all fun y => decide (x.2 < y.1) || decide (y.2 < x.1)

theorem disjointB_sound {a b : List (Nat × Nat)} (h : disjointB a b = true) (r : Nat)
    (ha : InIntervals r a) (hb : InIntervals r b) : False := by
  obtain ⟨x, hx, hx1, hx2⟩ := ha
  obtain ⟨y, hy, hy1, hy2⟩ := hb
  have := List.all_eq_true.mp (List.all_eq_true.mp h x hx) y hy
  simp only [Bool.or_eq_true, decide_eq_true_eq] at this
  omega

/-- Membership in a property table, stated without the search. -/
theorem property_eq_of_mem (d : List (Nat × Nat × Nat)) (hs : SortedIntervals (ranges d))
    (e : Nat × Nat × Nat) (he : e ∈ d) (r : Nat) (h1 : e.1 ≤ r) (h2 : r ≤ e.2.1) :
    property d r = e.2.2 := by
  unfold property
  rcases propertySearch_correct d hs r with ⟨x, hx, hx1, hx2, heq⟩ | ⟨hno, _⟩
  · rw [heq]
    obtain ⟨i, hi, rfl⟩ := List.getElem_of_mem hx
    obtain ⟨j, hj, rfl⟩ := List.getElem_of_mem he
    rcases Nat.lt_trichotomy i j with h | h | h
    · have := sorted_getElem hs i j h (by simpa [ranges] using hj)
      simp [ranges] at this; omega
    · subst h; rfl
    · have := sorted_getElem hs j i h (by simpa [ranges] using hi)
      simp [ranges] at this; omega
  · exact absurd ⟨h1, h2⟩ (hno e he)

theorem property_eq_zero_of_not_mem (d : List (Nat × Nat × Nat)) (hs : SortedIntervals (ranges d))
    (r : Nat) (h : ∀ e ∈ d, ¬ (e.1 ≤ r ∧ r ≤ e.2.1)) : property d r = 0 := by
  unfold property
  rcases propertySearch_correct d hs r with ⟨x, hx, hx1, hx2, _⟩ | ⟨_, heq⟩
  · exact absurd ⟨hx1, hx2⟩ (h x hx)
  · rw [heq]

end GoTable
