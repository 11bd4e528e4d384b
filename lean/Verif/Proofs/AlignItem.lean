import Verif.Proofs.World
import Verif.Proofs.Align
/-! `AlignFormattedItem` on the caller's slice, and headers. -/

namespace GoTable
open Spec

variable {σ ι ν ε : Type}

/-- What a column makes of a cell. -/
def alignedCell (cw : WidthMap) (col : Column σ ι ν ε) (x : GoString) : GoString :=
  match col.alignment with
  | none => x
  | some al => al x (cw col.name)

/-- The loop stays in bounds and touches exactly its own elements. -/
theorem alignLoop_inbounds (cw : WidthMap) (s : Slice) (cols : List (Column σ ι ν ε)) (i : Nat)
    (m : Memory) (h : i + cols.length ≤ s.len) :
    ∃ m', alignLoop cw s cols i m = some m' ∧
      (∀ j col, cols[j]? = some col →
        m' s.array (s.first + i + j) = alignedCell cw col (m s.array (s.first + i + j))) ∧
      (∀ a k, ¬ (a = s.array ∧ s.first + i ≤ k ∧ k < s.first + i + cols.length) → m' a k = m a k) := by
  induction cols generalizing i m with
  | nil => exact ⟨m, rfl, by simp, fun _ _ _ => rfl⟩
  | cons c cs ih =>
    simp only [List.length_cons] at h
    have step : ∃ m1, alignLoop cw s (c :: cs) i m = alignLoop cw s cs (i + 1) m1 ∧
        m1 s.array (s.first + i) = alignedCell cw c (m s.array (s.first + i)) ∧
        (∀ a k, ¬ (a = s.array ∧ k = s.first + i) → m1 a k = m a k) := by
      simp only [alignLoop.eq_2, alignedCell]
      rcases hc : c.alignment with _ | al
      · exact ⟨m, rfl, rfl, fun _ _ _ => rfl⟩
      · have hi : i < s.len := by omega
        refine ⟨fun a k => if a = s.array ∧ k = s.first + i then
          al (m s.array (s.first + i)) (cw c.name) else m a k, ?_, by simp, fun a k hk => by simp [hk]⟩
        simp [Slice.get?, Slice.set?, hi]
    obtain ⟨m1, h1, h2, h3⟩ := step
    obtain ⟨m', g1, g2, g3⟩ := ih (i + 1) m1 (by omega)
    refine ⟨m', by rw [h1, g1], fun j col hj => ?_, fun a k hk => ?_⟩
    · cases j with
      | zero =>
        simp only [List.getElem?_cons_zero, Option.some.injEq] at hj
        subst hj
        rw [g3 _ _ (by omega)]
        exact h2
      | succ j =>
        simp only [List.getElem?_cons_succ] at hj
        have := g2 j col hj
        rw [h3 _ _ (by omega)] at this
        have e : s.first + i + (j + 1) = s.first + (i + 1) + j := by omega
        rw [e]; exact this
    · simp only [List.length_cons] at hk
      rw [g3 a k (by omega), h3 a k (by omega)]

end GoTable
