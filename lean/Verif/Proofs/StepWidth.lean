import Verif.Proofs.MonoTables
import Verif.Proofs.StringWidth
/-! `StepString` for arbitrary states, restarts, and its widths. -/

namespace GoTable
open Spec

/-! ## Splitting -/

theorem stepLoop_split (s : GoString) (n gs fp w : Nat) (hn : 0 < n) (hs : s ≠ []) :
    (stepLoop s n gs fp w).cluster ++ (stepLoop s n gs fp w).rest = s ∧
    (stepLoop s n gs fp w).cluster ≠ [] := by
  fun_induction stepLoop s n gs fp w with
  | case1 n gs w r tr hb =>
    refine ⟨List.take_append_drop _ _, ?_⟩
    dsimp only
    intro h
    have := congrArg List.length h
    have h2 := List.length_pos_iff.mpr hs
    rw [List.length_take, List.length_nil] at this; omega
  | case2 => exact ⟨by simp, by simpa using hs⟩
  | case3 n gs w r l tr hb w' hlt ih => exact ih (by omega)

/-- Whatever the state passed in, `StepString` splits its argument after a non-empty cluster. -/
theorem stepString_split (s : GoString) (state : Int) (hs : s ≠ []) :
    (stepString s state).cluster ++ (stepString s state).rest = s ∧
    (stepString s state).cluster ≠ [] := by
  have hpos : 0 < s.length := List.length_pos_iff.mpr hs
  unfold stepString
  dsimp only
  rw [if_neg (by omega)]
  by_cases hl : s.length ≤ (decodeRune s).2
  · rw [if_pos hl]; exact ⟨by simp, by simpa using hs⟩
  · rw [if_neg hl]; exact stepLoop_split _ _ _ _ _ (decodeRune_size s hs).1 hs

/-- `StepString` sees its state only through the parser state and property it encodes. -/
theorem stepString_congr (s : GoString) (a b : Int) (gs : Nat) (ha : EntryState a (decodeRune s).1 gs)
    (hb : EntryState b (decodeRune s).1 gs) : stepString s a = stepString s b := by
  have key : ∀ state, EntryState state (decodeRune s).1 gs →
      (if state < 0 then (transitionGraphemeState state (decodeRune s).1).newState
        else state.toNat &&& maskGraphemeState) = gs ∧
      (if state < 0 then (transitionGraphemeState state (decodeRune s).1).prop
        else state.toNat >>> shiftPropState) = gprop (decodeRune s).1 := by
    intro state he
    rcases he with ⟨h, rfl⟩ | ⟨h, rfl⟩
    · rw [if_pos h, if_pos h]; exact ⟨rfl, T_prop _ _⟩
    · rw [if_neg (by omega), if_neg (by omega), Int.toNat_natCast, packState_prop h,
        packState_state h]
      exact ⟨rfl, rfl⟩
  unfold stepString
  dsimp only
  rw [(key a ha).1, (key a ha).2, (key b hb).1, (key b hb).2]

/-! ## Restarting at a boundary -/

theorem scan_boundary (st : Nat) (rs : List Nat) (r : Nat) (rs' : List Nat)
    (h : (scan st rs).2.1 = r :: rs') :
    (T (scan st rs).2.2 r).boundary = true ∧ (scan st rs).2.2 = foldSt st (scan st rs).1 := by
  induction rs generalizing st with
  | nil => simp [scan] at h
  | cons x rs ih =>
    rw [scan] at h ⊢
    by_cases hb : (T st x).boundary = true
    · rw [if_pos hb] at h ⊢
      dsimp only at h ⊢
      obtain ⟨rfl, _⟩ := List.cons.inj h
      exact ⟨hb, rfl⟩
    · rw [if_neg hb] at h ⊢
      dsimp only at h ⊢
      exact ⟨(ih _ h).1, (ih _ h).2⟩

theorem scan_restart (x : Nat) (rs : List Nat) (r : Nat) (rs' : List Nat)
    (h : (scan (T (-1) x).newState rs).2.1 = r :: rs') :
    (T (scan (T (-1) x).newState rs).2.2 r).newState = (T (-1) r).newState := by
  obtain ⟨h1, h2⟩ := scan_boundary _ _ _ _ h
  rw [h2] at h1 ⊢
  rw [T_start x, foldSt_stOf] at h1 ⊢
  obtain ⟨a, t, hat⟩ : ∃ a t, (((scan (stOf [classOf x]) rs).1.map classOf).reverse ++ [classOf x])
      = a :: t := by
    cases hx : (((scan (stOf [classOf x]) rs).1.map classOf).reverse ++ [classOf x]) with
    | nil => simp at hx
    | cons a b => exact ⟨a, b, rfl⟩
  rw [hat] at h1 ⊢
  exact T_restart a t r h1

/-! ## Widths of clusters -/

theorem foldl_snoc_width (fp w : Nat) (l : List Nat) (x : Nat) :
    (l ++ [x]).foldl (widthStep fp) w = widthStep fp (l.foldl (widthStep fp) w) x := by
  simp

theorem gprop_eq_iff (r : Nat) (c : GCB) : gprop r = gcbCode c ↔ classOf r = c := by
  rw [gprop_eq_code]
  constructor
  · intro h; revert h; cases classOf r <;> cases c <;> simp [gcbCode]
  · rintro rfl; rfl

theorem fold_extPict (w : Nat) (l : List Nat) (hl : l ≠ []) :
    l.foldl (widthStep prExtendedPictographic) w = if l.getLast? = some 0xFE0E then 1 else 2 := by
  obtain ⟨l, x, rfl⟩ : ∃ l' x, l = l' ++ [x] := ⟨l.dropLast, l.getLast hl, (List.dropLast_concat_getLast hl).symm⟩
  rw [foldl_snoc_width]
  simp only [widthStep, List.getLast?_append, List.getLast?_singleton, Option.some_or, Option.some.injEq]
  by_cases h1 : x = vs16
  · simp [h1, vs16]
  · by_cases h2 : x = vs15
    · simp [h2, vs15, vs16]
    · have h3 : x ≠ 65038 := h2
      simp [h1, h3]

theorem fold_const (fp : Nat) (l : List Nat) (hfp : fp = prRegionalIndicator ∨ fp = prL) :
    l.foldl (widthStep fp) 2 = 2 := by
  induction l with
  | nil => rfl
  | cons x l ih =>
    rw [List.foldl_cons]
    have : widthStep fp 2 x = 2 := by
      unfold widthStep
      rcases hfp with rfl | rfl <;> simp [prRegionalIndicator, prL, prExtendedPictographic]
    rw [this, ih]

theorem fold_sum (fp w : Nat) (l : List Nat)
    (hfp : fp ≠ prExtendedPictographic ∧ fp ≠ prRegionalIndicator ∧ fp ≠ prL) :
    l.foldl (widthStep fp) w =
      (if 0xFE0F ∈ l then 2 + (((l.reverse.takeWhile (· ≠ 0xFE0F)).reverse).map monoWidth).sum
       else w + (l.map monoWidth).sum) := by
  rw [← List.reverse_reverse l]
  generalize l.reverse = m
  induction m with
  | nil => simp
  | cons x m ih =>
    rw [List.reverse_cons, foldl_snoc_width, ih]
    unfold widthStep
    by_cases hx : x = vs16
    · subst hx
      simp [vs16]
    · have hx' : x ≠ 65039 := hx
      rw [if_neg hx, if_pos hfp, usRuneWidth_mono]
      by_cases hm : 0xFE0F ∈ m
      · simp [hm, hx']; omega
      · have : ¬ (65039 = x) := fun h => hx' h.symm
        simp [hm, this]; omega

/-- The width accumulated over a cluster. -/
theorem fold_clusterCells (r : Nat) (l : List Nat) :
    l.foldl (widthStep (gprop r)) (usRuneWidth r (gprop r)) = clusterCells (r :: l) := by
  rw [usRuneWidth_mono]
  cases l with
  | nil => rfl
  | cons x l =>
    show _ = if classOf r = .extPict then _ else _
    by_cases h1 : classOf r = .extPict
    · rw [if_pos h1, (gprop_eq_iff r .extPict).mpr h1]
      exact fold_extPict _ _ (by simp)
    · rw [if_neg h1]
      by_cases h2 : classOf r = .ri ∨ classOf r = .l
      · rw [if_pos h2]
        rcases h2 with h2 | h2
        · rw [(gprop_eq_iff r .ri).mpr h2, ri_mono r h2]; exact fold_const _ _ (Or.inl rfl)
        · rw [(gprop_eq_iff r .l).mpr h2, l_mono r h2]; exact fold_const _ _ (Or.inr rfl)
      · rw [if_neg h2]
        apply fold_sum
        refine ⟨?_, ?_, ?_⟩
        · intro h; exact h1 ((gprop_eq_iff r .extPict).mp h)
        · intro h; exact h2 (Or.inl ((gprop_eq_iff r .ri).mp h))
        · intro h; exact h2 (Or.inr ((gprop_eq_iff r .l).mp h))

end GoTable
