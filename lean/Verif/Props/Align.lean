import Verif.Proofs.Align
/-!
# Properties of the alignments: C16, C17, C18, C19
-/

namespace GoTable
open Spec

/-! ## C16 -/

/-- C16. `AlignmentLeft` appends as many spaces as cells are missing, none if the text is wide enough already, and reaches the
width exactly unless the text ends in a Prepend character. -/
theorem C16_alignmentLeft_exact (f : Flags) (s : GoString) (w : UInt16) :
    alignmentLeft f s w = s ++ List.replicate (w.toNat - (visualWidth f s).toNat) 0x20 ∧
    (w ≤ visualWidth f s → alignmentLeft f s w = s) ∧
    (visualWidth f s < w → ¬ EndsInPrepend s →
      visualWidth f (alignmentLeft f s w) = w) := by
  rw [alignmentLeft_eq]
  refine ⟨rfl, fun h => ?_, fun h hp => ?_⟩
  · rw [UInt16.le_iff_toNat_le] at h
    rw [Nat.sub_eq_zero_of_le h]; simp [spaces]
  · rw [visualWidth_append_spaces f s _ hp, add_sub_toNat h]

/-- Wide, coloured text. -/
example : visualWidth ⟨false, true⟩ (lit "\x1b[1m中\x1b[0m") = 2 ∧
    ¬ EndsInPrepend (lit "\x1b[1m中\x1b[0m") ∧
    alignmentLeft ⟨false, true⟩ (lit "\x1b[1m中\x1b[0m") 5 = lit "\x1b[1m中\x1b[0m   " := by decide +kernel

/-- The condition is needed: a space after a Prepend character (U+0600) adds no width. -/
theorem C16_inexact_after_prepend :
    visualWidth ⟨false, true⟩ (lit "؀") = 1 ∧
    visualWidth ⟨false, true⟩ (alignmentLeft ⟨false, true⟩ (lit "؀") 3) = 2 := by decide +kernel

/-! ## C17 -/

/-- C17. The same at the front; exact unless the text starts with an extending character. -/
theorem C17_alignmentRight_exact (f : Flags) (s : GoString) (w : UInt16) :
    alignmentRight f s w = List.replicate (w.toNat - (visualWidth f s).toNat) 0x20 ++ s ∧
    (w ≤ visualWidth f s → alignmentRight f s w = s) ∧
    (visualWidth f s < w → ¬ StartsExtending s → visualWidth f (alignmentRight f s w) = w) := by
  rw [alignmentRight_eq]
  refine ⟨rfl, fun h => ?_, fun h hp => ?_⟩
  · rw [UInt16.le_iff_toNat_le] at h
    rw [Nat.sub_eq_zero_of_le h]; simp [spaces]
  · rw [visualWidth_spaces_append f s _ hp, UInt16.add_comm, add_sub_toNat h]

/-- A flag and a decomposed accent. -/
example : ¬ StartsExtending (lit "🇩🇪é") ∧
    alignmentRight ⟨false, true⟩ (lit "🇩🇪é") 4 = lit "  🇩🇪é" := by decide +kernel

/-- The condition is needed: U+0903 (SpacingMark, width 1 on its own) joins the space before it. -/
theorem C17_inexact_before_extending :
    visualWidth ⟨false, true⟩ (lit "ः") = 1 ∧
    visualWidth ⟨false, true⟩ (alignmentRight ⟨false, true⟩ (lit "ः") 3) = 2 := by decide +kernel

/-! ## C18 -/

/-- C18. The missing cells are filled on both sides, an odd one on the left. -/
theorem C18_alignmentCenter_exact (f : Flags) (s : GoString) (w : UInt16) :
    (∃ l r, alignmentCenter f s w = List.replicate l 0x20 ++ s ++ List.replicate r 0x20 ∧
      (l = r ∨ l = r + 1) ∧ l + r = w.toNat - (visualWidth f s).toNat) ∧
    (w ≤ visualWidth f s → alignmentCenter f s w = s) ∧
    (visualWidth f s < w → ¬ StartsExtending s → ¬ EndsInPrepend s →
      visualWidth f (alignmentCenter f s w) = w) := by
  rw [alignmentCenter_eq]
  refine ⟨⟨_, _, rfl, by omega, by omega⟩, fun h => ?_, fun h hx hp => ?_⟩
  · rw [UInt16.le_iff_toNat_le] at h
    rw [Nat.sub_eq_zero_of_le h]; simp [spaces]
  · rw [List.append_assoc, visualWidth_spaces_append f _ _ (startsExtending_append_spaces hx _),
      visualWidth_append_spaces f s _ hp]
    rw [UInt16.lt_iff_toNat_lt] at h
    rw [← UInt16.toNat_inj, UInt16.toNat_add, UInt16.toNat_add, UInt16.toNat_ofNat', UInt16.toNat_ofNat']
    have := w.toNat_lt
    omega

/-- An odd difference: one space more on the left. -/
example : alignmentCenter ⟨false, true⟩ (lit "中") 5 = lit "  中 " := by decide +kernel

/-! ## C19 -/

/-- C19, no truncation: the text occurs whole in each result. -/
theorem C19_no_truncation (f : Flags) (s : GoString) (w : UInt16) :
    s <+: alignmentLeft f s w ∧ s <:+ alignmentRight f s w ∧ s <:+: alignmentCenter f s w := by
  rw [alignmentLeft_eq, alignmentRight_eq, alignmentCenter_eq]
  exact ⟨⟨_, rfl⟩, ⟨_, rfl⟩, ⟨_, _, rfl⟩⟩

/-- C19, idempotence. -/
theorem C19_idempotent (f : Flags) (s : GoString) (w : UInt16) :
    (¬ EndsInPrepend s →
      alignmentLeft f (alignmentLeft f s w) w = alignmentLeft f s w) ∧
    (¬ StartsExtending s → alignmentRight f (alignmentRight f s w) w = alignmentRight f s w) ∧
    (¬ EndsInPrepend s → ¬ StartsExtending s →
      alignmentCenter f (alignmentCenter f s w) w = alignmentCenter f s w) := by
  have hcase : w ≤ visualWidth f s ∨ visualWidth f s < w := by
    rw [UInt16.le_iff_toNat_le, UInt16.lt_iff_toNat_lt]; omega
  have hrefl : ∀ {x : UInt16}, x = w → w ≤ x := by rintro x rfl; exact UInt16.le_refl _
  refine ⟨fun hp => ?_, fun hx => ?_, fun hp hx => ?_⟩
  · have H := C16_alignmentLeft_exact f s w
    rcases hcase with h | h
    · rw [H.2.1 h, H.2.1 h]
    · exact (C16_alignmentLeft_exact f _ w).2.1 (hrefl (H.2.2 h hp))
  · have H := C17_alignmentRight_exact f s w
    rcases hcase with h | h
    · rw [H.2.1 h, H.2.1 h]
    · exact (C17_alignmentRight_exact f _ w).2.1 (hrefl (H.2.2 h hx))
  · have H := C18_alignmentCenter_exact f s w
    rcases hcase with h | h
    · rw [H.2.1 h, H.2.1 h]
    · exact (C18_alignmentCenter_exact f _ w).2.1 (hrefl (H.2.2 h hx hp))

/-- The edge conditions are needed here too: aligning again pads further. -/
theorem C19_not_idempotent_after_prepend :
    alignmentLeft ⟨false, true⟩ (alignmentLeft ⟨false, true⟩ (lit "؀") 3) 3
      ≠ alignmentLeft ⟨false, true⟩ (lit "؀") 3 := by decide +kernel

end GoTable
