import Verif.Proofs.Conditions
/-!
# Properties: conditions as objects in memory

C102: by which settings a condition measures, whatever a program does with conditions.
-/

namespace GoTable
open Spec

/-- C102. Whatever has been done with conditions, each of them measures by the settings its lookup table was last filled
for, or by its own if it has none; no index into a table is out of range. -/
theorem C102_in_force (calls : List CondCall) (c : Nat) (r : Int) (s : GoString) :
    (memoryAfter calls).runeWidth c r = some (plainWidth ((known calls).inForce c) r) ∧
    (memoryAfter calls).stringWidth c s = some (stringWidth ((known calls).inForce c) s) ∧
    (memoryAfter calls).packageWidth s = some (stringWidth ((known calls).inForce (known calls).default) s) := by
  have h := fits_after calls
  refine ⟨?_, measures_stringWidth (fits_view h c) s, ?_⟩
  · rw [CondMemory.runeWidth, measures_runeWidth (fits_view h c), runeWidth_eq_plain]
  · rw [CondMemory.packageWidth, h.default]
    exact measures_stringWidth (fits_view h _) s

/-- Object 1 gets a table and is copied to 2, then the table is filled for other settings: those of 2 do not matter. -/
example : (known [.literal 1 ⟨false, true⟩, .createLUT 1, .copy 2 1, .setFlags 1 ⟨true, true⟩, .setFlags 2 ⟨false, false⟩,
    .createLUT 1]).inForce 2 = ⟨true, true⟩ ∧ runeWidth ⟨true, true⟩ 0xA7 = 2 ∧ runeWidth ⟨false, false⟩ 0xA7 = 1 := by
  refine ⟨by decide, ?_⟩
  simp only [runeWidth_eq_plain]
  decide +kernel

theorem settings_keep {d : Nat} {k : Known} (hd : k.default = d) (t : Nat) (ht : k.table d = some t) {calls : List CondCall}
    (hs : ∀ x ∈ calls, Settings d x) :
    (calls.foldl Known.after k).default = d ∧ (calls.foldl Known.after k).table d = some t ∧
    (calls.foldl Known.after k).filledFor = k.filledFor := by
  induction calls generalizing k with
  | nil => exact ⟨hd, ht, rfl⟩
  | cons x calls ih =>
    have hx := hs x List.mem_cons_self
    have hr := fun y hy => hs y (List.mem_cons_of_mem _ hy)
    have key : (k.after x).default = d ∧ (k.after x).table d = some t ∧ (k.after x).filledFor = k.filledFor := by
      cases x with
      | setFlags c f => exact ⟨hd, ht, rfl⟩
      | setVars f => exact ⟨hd, ht, rfl⟩
      | packageLUT =>
        simp only [Known.after, hd, ht]
        exact ⟨hd, ht, rfl⟩
      | literal c f => exact ⟨hd, by simp [Known.after, update, Ne.symm hx, ht], rfl⟩
      | new c => exact ⟨hd, by simp [Known.after, update, Ne.symm hx, ht], rfl⟩
      | copy c src => exact ⟨hd, by simp [Known.after, update, Ne.symm hx, ht], rfl⟩
      | createLUT c => exact absurd hx id
      | setDefault c => exact absurd hx id
    obtain ⟨h1, h2, h3⟩ := ih key.1 key.2.1 hr
    exact ⟨h1, h2, h3.trans key.2.2⟩

/-- C102. `CreateLUT` of the package changes no width, and after it new settings for the default condition have no
effect, even if `CreateLUT` of the package is called again: it does not refresh a table. -/
theorem C102_package_never_refreshes (pre post : List CondCall) (s : GoString)
    (h : ∀ x ∈ post, Settings (known pre).default x) :
    (memoryAfter (pre ++ .packageLUT :: post)).packageWidth s = (memoryAfter pre).packageWidth s := by
  rw [(C102_in_force _ 0 0 s).2.2, (C102_in_force _ 0 0 s).2.2]
  congr 2
  unfold known at h ⊢
  rw [List.foldl_append, List.foldl_cons]
  generalize pre.foldl Known.after .initial = k at h ⊢
  obtain ⟨t, ht, hf⟩ : ∃ t, (k.after .packageLUT).table k.default = some t ∧
      (k.after .packageLUT).filledFor t = k.inForce k.default := by
    simp only [Known.after, Known.fill, Known.inForce]
    cases ht : k.table k.default with
    | none => exact ⟨k.tables, by simp [update], by simp [update]⟩
    | some t => exact ⟨t, by simp [ht], by simp⟩
  have hd : (k.after .packageLUT).default = k.default := by
    simp only [Known.after, Known.fill]
    cases ht : k.table k.default <;> simp
  obtain ⟨h1, h2, h3⟩ := settings_keep hd t ht h
  rw [h1]
  unfold Known.inForce at hf ⊢
  rw [h2, h3]
  exact hf

/-- A program that turns East Asian widths on and creates the table anew still gets narrow ones; the method `CreateLUT`
would have given it the others. -/
example : (∀ x ∈ [CondCall.setFlags 0 ⟨true, true⟩, .setVars ⟨true, true⟩, .packageLUT], Settings (known []).default x) ∧
    (memoryAfter [.packageLUT, .setFlags 0 ⟨true, true⟩, .setVars ⟨true, true⟩, .packageLUT]).packageWidth (lit "§") = some 1 ∧
    (memoryAfter [.packageLUT, .setFlags 0 ⟨true, true⟩, .createLUT 0]).packageWidth (lit "§") = some 2 := by
  refine ⟨?_, ?_, ?_⟩
  · simp [Settings]
  · rw [(C102_in_force _ 0 0 _).2.2]
    exact congrArg some (show stringWidth ⟨false, true⟩ (lit "§") = 1 by decide +kernel)
  · rw [(C102_in_force _ 0 0 _).2.2]
    exact congrArg some (show stringWidth ⟨true, true⟩ (lit "§") = 2 by decide +kernel)

/-- C102. After `c.CreateLUT()` the condition measures by its own settings, and so do, whatever theirs are, all that were
copied from it since it got its table, or from which it got it; no other condition is affected. -/
theorem C102_refresh (pre : List CondCall) (c d : Nat) (r : Int) :
    (memoryAfter (pre ++ [.createLUT c])).runeWidth c r = some (plainWidth ((known pre).fields c) r) ∧
    (∀ t, (known pre).table c = some t → (known pre).table d = some t →
      (memoryAfter (pre ++ [.createLUT c])).runeWidth d r = some (plainWidth ((known pre).fields c) r)) ∧
    (d ≠ c → ((known pre).table d = none ∨ (known pre).table d ≠ (known pre).table c) →
      (memoryAfter (pre ++ [.createLUT c])).runeWidth d r = (memoryAfter pre).runeWidth d r) := by
  have hb := (fits_after pre).below
  rw [(C102_in_force _ c r []).1, (C102_in_force _ d r []).1, (C102_in_force _ d r []).1]
  have hk : known (pre ++ [.createLUT c]) = (known pre).fill c := by
    simp only [known, List.foldl_append, List.foldl_cons, List.foldl_nil, Known.after]
  rw [hk]
  generalize known pre = k at hb ⊢
  unfold Known.inForce Known.fill
  refine ⟨?_, fun t h1 h2 => ?_, fun hne h => ?_⟩
  · cases ht : k.table c <;> simp [update, ht]
  · simp [h1, h2, update]
  · cases ht : k.table c with
    | none =>
      simp only [update, hne, if_false]
      cases hd : k.table d with
      | none => rfl
      | some t =>
        have := hb d t hd
        simp [show t ≠ k.tables by omega]
    | some t =>
      cases hd : k.table d with
      | none => rfl
      | some u =>
        have : u ≠ t := by
          rintro rfl
          rw [hd, ht] at h; simp at h
        simp [update, this]

/-- A condition with a table, a copy of it, and an independent one. -/
example : (known [.new 1, .createLUT 1, .copy 2 1, .new 3, .createLUT 3]).table 1 = some 0 ∧
    (known [.new 1, .createLUT 1, .copy 2 1, .new 3, .createLUT 3]).table 2 = some 0 ∧
    (known [.new 1, .createLUT 1, .copy 2 1, .new 3, .createLUT 3]).table 3 = some 1 := by decide

/-- C102. The package variables matter to no condition there is, only to those made later. -/
theorem C102_variables (pre : List CondCall) (f : Flags) (c : Nat) (r : Int) :
    (memoryAfter (pre ++ [.setVars f])).runeWidth c r = (memoryAfter pre).runeWidth c r ∧
    (memoryAfter (pre ++ [.setVars f, .new c])).runeWidth c r = some (plainWidth f r) := by
  rw [(C102_in_force _ c r []).1, (C102_in_force _ c r []).1, (C102_in_force _ c r []).1]
  simp [known, List.foldl_append, Known.after, Known.inForce, update]

end GoTable
