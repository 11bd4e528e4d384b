import Verif.Proofs.Respell
import Verif.Props.PlainText
/-!
# Composed and decomposed spelling: the tables
-/

namespace GoTable
open Spec

theorem canonical_lookup {l : List (Nat × List Nat)} {r : Nat} {d : List Nat} (h : l.lookup r = some d) : (r, d) ∈ l := by
  induction l with
  | nil => cases h
  | cons a l ih =>
    obtain ⟨x, y⟩ := a
    rw [List.lookup_cons] at h
    split at h
    · rename_i e
      have e' : r = x := by simpa using e
      injection h with h
      subst h e'
      exact List.mem_cons_self
    · exact List.mem_cons_of_mem _ (ih h)

theorem spelledOut_cases (r : Nat) :
    (Syllable r ∧ spelledOut r = jamo r) ∨ (r, spelledOut r) ∈ canonical ∨ spelledOut r = [r] := by
  unfold spelledOut
  by_cases h : Syllable r
  · rw [if_pos h]; exact .inl ⟨h, rfl⟩
  · rw [if_neg h]
    cases hl : canonical.lookup r with
    | none => exact .inr (.inr rfl)
    | some d => exact .inr (.inl (canonical_lookup hl))

theorem jamo_props : (∀ i ∈ List.range 19, gprop (0x1100 + i) = 9) ∧ (∀ i ∈ List.range 21, gprop (0x1161 + i) = 10) ∧
    (∀ i ∈ List.range 28, i ≠ 0 → gprop (0x11A7 + i) = 11) := by decide +kernel

theorem jamo_width : ∀ i ∈ List.range 19, ∀ a b, runeWidth ⟨a, b⟩ ((0x1100 + i : Nat) : Int) = 2 := by decide +kernel

theorem stands_jamo (z : Bool) {r : Nat} (h : Syllable r) : Stands z r (jamo r) := by
  obtain ⟨h1, h2⟩ := h
  have hl := jamo_props.1 ((r - 0xAC00) / 588) (List.mem_range.mpr (by omega))
  have hv := jamo_props.2.1 ((r - 0xAC00) % 588 / 28) (List.mem_range.mpr (by omega))
  have hc := C45_hangul_classes r
  refine ⟨?_⟩
  by_cases hm : (r - 0xAC00) % 28 = 0
  · have hg : gprop r = 12 := hc.1.mpr ⟨h1, h2, hm⟩
    have hj : (jamo r).map gprop = [9, 10] := by
      unfold jamo; dsimp only; rw [if_pos hm, List.append_nil, List.map_cons, List.map_cons, hl, hv]; rfl
    rw [hg, hj]; exact (hangul_sim z).1
  · have hg : gprop r = 13 := hc.2.mpr ⟨h1, h2, hm⟩
    have ht := jamo_props.2.2 ((r - 0xAC00) % 28) (List.mem_range.mpr (by omega)) hm
    have hj : (jamo r).map gprop = [9, 10, 11] := by
      unfold jamo; dsimp only
      rw [if_neg hm, List.map_append, List.map_cons, List.map_cons, List.map_cons, hl, hv, ht]; rfl
    rw [hg, hj]; exact (hangul_sim z).2

theorem stands_spelledOut (z : Bool) (r : Nat) (hz : if z = true then r ∉ contextual else r ≠ 0x200D) :
    Stands z r (spelledOut r) := by
  rcases spelledOut_cases r with ⟨h, e⟩ | h | e
  · rw [e]; exact stands_jamo z h
  · refine ⟨?_⟩
    rcases canonical_kinds _ h with hk | ⟨hk, hc⟩
    · have := kinds_sim _ hk
      cases z
      · exact this.2
      · exact this.1
    · cases z
      · exact kinds'_sim _ hk
      · exact absurd hc hz
  · rw [e]
    refine stands_self z r fun h => ?_
    rw [h] at hz
    exact hz

theorem width_jamo (f : Flags) {r : Nat} (h : Syllable r) :
    clusterWidth (fun x => runeWidth f x) (jamo r) = 2 ∧ runeWidth f r = 2 := by
  obtain ⟨h1, h2⟩ := h
  constructor
  · unfold jamo
    dsimp only
    rw [List.cons_append, clusterWidth, jamo_width ((r - 0xAC00) / 588) (List.mem_range.mpr (by omega))]
    rfl
  · rw [runeWidth_eq_plain]
    exact plainWidth_wide (x := (0xAC00, 0xD7A3)) (by decide +kernel) h1 h2

theorem canonical_narrow' : ∀ e ∈ canonical, (clusterWidth (fun x => runeWidth ⟨false, true⟩ x) e.2 ==
    runeWidth ⟨false, true⟩ e.1) = true := by decide +kernel

theorem canonical_narrow (b : Bool) (e : Nat × List Nat) (h : e ∈ canonical) :
    clusterWidth (fun x => runeWidth ⟨false, b⟩ x) e.2 = runeWidth ⟨false, b⟩ e.1 := by
  have hb : ∀ r, runeWidth ⟨false, b⟩ r = runeWidth ⟨false, true⟩ r := fun r => rfl
  simp only [hb]
  exact beq_iff_eq.mp (canonical_narrow' e h)

/-- The members of `narrowComposed` and of `wideComposed` one by one. -/
def narrowMembers : List Nat := narrowComposed.flatMap fun x => List.range' x.1 (x.2 - x.1 + 1)
@[inherit_doc narrowMembers]
def wideMembers : List Nat := wideComposed.flatMap fun x => List.range' x.1 (x.2 - x.1 + 1)

theorem mem_members {l : List (Nat × Nat)} {r : Nat} (h : InIntervals r l) :
    r ∈ l.flatMap fun x => List.range' x.1 (x.2 - x.1 + 1) := by
  obtain ⟨x, hx, h1, h2⟩ := h
  refine List.mem_flatMap.mpr ⟨x, hx, List.mem_range'_1.mpr ?_⟩
  omega

theorem members_mem {l : List (Nat × Nat)} (hl : ∀ x ∈ l, x.1 ≤ x.2) {r : Nat}
    (h : r ∈ l.flatMap fun x => List.range' x.1 (x.2 - x.1 + 1)) : InIntervals r l := by
  obtain ⟨x, hx, h⟩ := List.mem_flatMap.mp h
  have := List.mem_range'_1.mp h
  have := hl x hx
  exact ⟨x, hx, by omega, by omega⟩

theorem narrow_members : ∀ r ∈ narrowMembers, ∀ b, (runeWidth ⟨true, b⟩ r == 1 &&
    clusterWidth (fun x => runeWidth ⟨true, b⟩ x) (spelledOut r) == 2) = true := by decide +kernel

theorem wide_members : ∀ r ∈ wideMembers, ∀ b, (runeWidth ⟨true, b⟩ r == 2 &&
    clusterWidth (fun x => runeWidth ⟨true, b⟩ x) (spelledOut r) == 1) = true := by decide +kernel

theorem canonical_wide : ∀ e ∈ canonical, ∀ b, (clusterWidth (fun x => runeWidth ⟨true, b⟩ x) e.2 ==
    runeWidth ⟨true, b⟩ e.1 || (narrowMembers.contains e.1 || wideMembers.contains e.1)) = true := by decide +kernel

theorem clusterWidth_one (w : Nat → Nat) (r : Nat) : clusterWidth w [r] = w r := by
  rw [clusterWidth]
  by_cases h : 0 < w r
  · rw [if_pos h]
  · rw [if_neg h, clusterWidth]; omega

theorem width_spelledOut_off (f : Flags) (hf : f.eastAsianWidth = false) (r : Nat) :
    clusterWidth (fun x => runeWidth f x) (spelledOut r) = runeWidth f r := by
  rcases spelledOut_cases r with ⟨h, e⟩ | h | e
  · rw [e, (width_jamo f h).1, (width_jamo f h).2]
  · obtain ⟨a, b⟩ := f
    subst hf
    exact canonical_narrow b _ h
  · rw [e]; exact clusterWidth_one _ r

end GoTable
