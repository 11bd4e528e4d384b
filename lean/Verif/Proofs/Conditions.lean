import Verif.Proofs.Histories
import Verif.Spec.Conditions
/-!
# Proofs: what a condition measures by
-/

namespace GoTable
open Spec

/-- The bytes of a table filled for `f`. -/
def lutFilled (f : Flags) : List UInt8 := (List.range (0x110000 / 2)).map (lutByte f)

theorem lutFilled_length (f : Flags) : (lutFilled f).length = 0x110000 / 2 := by simp [lutFilled]

/-- Memory and what is known of it. -/
structure Fits (m : CondMemory) (k : Known) : Prop where
  vars : m.vars = k.vars
  default : m.default = k.default
  fields : ∀ c, (m.object c).flags = k.fields c
  table : ∀ c, (m.object c).lut = k.table c
  below : ∀ c t, k.table c = some t → t < k.tables
  arrays : ∀ t, t < k.tables → m.array t = lutFilled (k.filledFor t)
  made : m.made = k.tables

theorem fits_view {m : CondMemory} {k : Known} (h : Fits m k) (c : Nat) : Measures (m.view c) (k.inForce c) := by
  unfold CondMemory.view Known.inForce
  rw [h.table c, h.fields c]
  cases ht : k.table c with
  | none => exact Or.inr ⟨rfl, rfl⟩
  | some t => exact Or.inl (h.arrays t (h.below c t ht))

theorem view_lut {m : CondMemory} {k : Known} (h : Fits m k) (c : Nat) :
    (m.view c).combinedLut = match k.table c with | none => [] | some t => lutFilled (k.filledFor t) := by
  unfold CondMemory.view
  rw [h.table c]
  cases ht : k.table c with
  | none => rfl
  | some t => exact h.arrays t (h.below c t ht)

theorem view_filled {m : CondMemory} {k : Known} (h : Fits m k) (c : Nat) :
    (m.view c).createLUT.combinedLut = lutFilled (k.fields c) := by
  have := createLUT_lutFor (m.view c) (by
    rcases fits_view h c with h | ⟨h, _⟩
    · exact .inr ⟨_, h⟩
    · exact .inl h)
  rw [show (m.view c).flags = k.fields c from h.fields c] at this
  exact this

theorem fits_create {m : CondMemory} {k : Known} (h : Fits m k) (c : Nat) : Fits (m.createLUT c) (k.fill c) := by
  unfold CondMemory.createLUT Known.fill
  rw [h.table c, view_filled h c]
  cases ht : k.table c with
  | none =>
    dsimp only
    refine ⟨h.vars, h.default, fun i => ?_, fun i => ?_, fun i t hi => ?_, fun t hlt => ?_, by simp [h.made]⟩
    · simp only [CondMemory.assign]
      by_cases hi : i = c
      · subst hi; simp [h.fields]
      · simp [hi, h.fields]
    · simp only [CondMemory.assign, update]
      by_cases hi : i = c
      · simp [hi, h.made]
      · simp [hi, h.table]
    · simp only [update] at hi
      by_cases hc : i = c
      · simp [hc] at hi; show t < k.tables + 1; omega
      · simp [hc] at hi
        have := h.below i t hi
        simp only; omega
    · simp only [update, h.made]
      by_cases he : t = k.tables
      · simp [he]
      · simp only [he, if_false]
        exact h.arrays t (by simp only at hlt; omega)
  | some t =>
    dsimp only
    have hl := h.arrays t (h.below c t ht)
    rw [if_pos (by rw [hl, lutFilled_length]; omega)]
    refine ⟨h.vars, h.default, h.fields, h.table, h.below, fun i hi => ?_, h.made⟩
    simp only [update]
    by_cases he : i = t
    · simp [he]
    · simp only [he, if_false]; exact h.arrays i hi

theorem fits_assign {m : CondMemory} {k : Known} (h : Fits m k) (c : Nat) (x : CondObject)
    (hx : ∀ t, x.lut = some t → t < k.tables) :
    Fits (m.assign c x) { k with fields := update k.fields c x.flags, table := update k.table c x.lut } := by
  refine ⟨h.vars, h.default, fun i => ?_, fun i => ?_, fun i t hi => ?_, h.arrays, h.made⟩
  · simp only [CondMemory.assign, update]
    by_cases hi : i = c
    · simp [hi]
    · simp [hi, h.fields]
  · simp only [CondMemory.assign, update]
    by_cases hi : i = c
    · simp [hi]
    · simp [hi, h.table]
  · simp only [update] at hi
    by_cases hc : i = c
    · simp [hc] at hi; exact hx t hi
    · simp [hc] at hi; exact h.below i t hi

theorem update_same {α : Type} (g : Nat → α) (i : Nat) : update g i (g i) = g := by
  funext j
  by_cases h : j = i <;> simp [update, h]

theorem fits_step {m : CondMemory} {k : Known} (h : Fits m k) (x : CondCall) : Fits (x.apply m) (k.after x) := by
  cases x with
  | literal c f => exact fits_assign h c ⟨none, f⟩ (by simp)
  | new c =>
    have := fits_assign h c ⟨none, m.vars⟩ (by simp)
    rw [h.vars] at this
    unfold CondCall.apply CondMemory.newCondition Known.after
    rw [h.vars]
    exact this
  | copy dst src =>
    have := fits_assign h dst (m.object src) (fun t ht => h.below src t (by rw [← h.table src]; exact ht))
    rw [h.fields, h.table] at this
    exact this
  | setFlags c f =>
    have := fits_assign h c ⟨(m.object c).lut, f⟩ (fun t ht => h.below c t (by rw [← h.table c]; exact ht))
    simp only [h.table c, update_same] at this
    unfold CondCall.apply Known.after
    simp only [h.table c]
    exact this
  | createLUT c => exact fits_create h c
  | setVars f => exact ⟨rfl, h.default, h.fields, h.table, h.below, h.arrays, h.made⟩
  | setDefault c => exact ⟨h.vars, rfl, h.fields, h.table, h.below, h.arrays, h.made⟩
  | packageLUT =>
    unfold CondCall.apply Known.after CondMemory.packageLUT
    dsimp only
    rw [view_lut h, h.default]
    cases ht : k.table k.default with
    | none => simpa using fits_create h k.default
    | some t =>
      dsimp only
      rw [if_pos (by rw [lutFilled_length]; omega)]
      simpa using h

theorem fits_foldl {m : CondMemory} {k : Known} (h : Fits m k) (calls : List CondCall) :
    Fits (calls.foldl CondCall.apply m) (calls.foldl Known.after k) := by
  induction calls generalizing m k with
  | nil => exact h
  | cons x calls ih => exact ih (fits_step h x)

theorem fits_initial : Fits .initial .initial := by
  refine ⟨rfl, rfl, fun c => ?_, fun c => ?_, fun c t h => ?_, fun t h => ?_, rfl⟩
  · simp only [CondMemory.initial, Known.initial]; split <;> rfl
  · simp only [CondMemory.initial, Known.initial]; split <;> rfl
  · simp [Known.initial] at h
  · simp [Known.initial] at h

theorem fits_after (calls : List CondCall) : Fits (memoryAfter calls) (known calls) := fits_foldl fits_initial calls

end GoTable
