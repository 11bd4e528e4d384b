import Verif.Proofs.UAX29
import Verif.Proofs.RuneWidth
/-! StringWidth as a fold over runes; additivity at boundaries; subadditivity. -/

namespace GoTable
open Spec

/-! ## Restarting at a boundary -/

theorem restart_finite (h c : GCB) (ep ri : Bool) :
    (transitionProp (stF h ep ri : Nat) (gcbCode c)).boundary = true →
    (transitionProp (stF h ep ri : Nat) (gcbCode c)).newState
      = (transitionProp (-1) (gcbCode c)).newState := by
  have H : ∀ h ∈ allGCB, ∀ c ∈ allGCB, ∀ ep ∈ [true, false], ∀ ri ∈ [true, false],
      (transitionProp (stF h ep ri : Nat) (gcbCode c)).boundary = true →
      (transitionProp (stF h ep ri : Nat) (gcbCode c)).newState
        = (transitionProp (-1) (gcbCode c)).newState := by
    decide +kernel
  exact H h (mem_allGCB h) c (mem_allGCB c) ep (by cases ep <;> simp) ri (by cases ri <;> simp)

/-- After a boundary the parser is where it would be at the start of text. -/
theorem T_restart (h : GCB) (t : List GCB) (r : Nat) (hb : (T (stOf (h :: t) : Nat) r).boundary = true) :
    (T (stOf (h :: t) : Nat) r).newState = (T (-1) r).newState := by
  unfold T transitionGraphemeState at *
  rw [show property graphemeCodePoints r = gcbCode (classOf r) from gprop_eq_code r] at *
  exact restart_finite h (classOf r) (epExt t) (riOdd t) hb

/-- Parser state after a non-empty text. -/
def endState : List Nat → Nat
  | [] => 0
  | r :: rs => foldSt (T (-1) r).newState rs

theorem endState_eq (r : Nat) (rs : List Nat) :
    endState (r :: rs) = stOf (((r :: rs).map classOf).reverse) := by
  rw [endState, T_start, foldSt_stOf]; simp

theorem endState_stOf (a : List Nat) (ha : a ≠ []) : ∃ h t, (a.map classOf).reverse = h :: t ∧
    endState a = stOf (h :: t) := by
  cases a with
  | nil => exact absurd rfl ha
  | cons r rs =>
    rw [endState_eq]
    cases hx : ((r :: rs).map classOf).reverse with
    | nil => simp at hx
    | cons h t => exact ⟨h, t, rfl, rfl⟩

theorem T_endState_boundary (a : List Nat) (ha : a ≠ []) (r : Nat) :
    (T (endState a) r).boundary = true ↔ Breaks (a.map classOf) (classOf r) := by
  obtain ⟨h, t, h1, h2⟩ := endState_stOf a ha
  rw [h2, (T_stOf h t r).2, ← h1]; simp

theorem segs_append (st : Nat) (cur a : List Nat) (r : Nat) (b : List Nat)
    (hb : (T (foldSt st a) r).boundary = true) :
    segs st cur (a ++ r :: b) = segs st cur a ++ segs (T (foldSt st a) r).newState [r] b := by
  induction a generalizing st cur with
  | nil =>
    rw [List.nil_append, segs, segs]
    have hb' : (T st r).boundary = true := hb
    rw [if_pos hb']; rfl
  | cons x a ih =>
    rw [List.cons_append, segs, segs]
    have h2 : foldSt st (x :: a) = foldSt (T st x).newState a := rfl
    rw [h2] at hb ⊢
    split
    · rw [ih _ _ hb]; rfl
    · rw [ih _ _ hb]

/-- Segmentation is local: at a boundary it splits. -/
theorem segments_append (a : List Nat) (r : Nat) (b : List Nat) (ha : a ≠ [])
    (hb : Breaks (a.map classOf) (classOf r)) :
    segments (a ++ r :: b) = segments a ++ segments (r :: b) := by
  rw [← T_endState_boundary a ha] at hb
  obtain ⟨h, t, h1, h2⟩ := endState_stOf a ha
  cases a with
  | nil => exact absurd rfl ha
  | cons x a =>
    rw [List.cons_append, segments, segments, segments]
    have he : endState (x :: a) = foldSt (T (-1) x).newState a := rfl
    rw [he] at hb h2
    rw [segs_append _ _ _ _ _ hb]
    have : (T (foldSt (T (-1) x).newState a) r).newState = (T (-1) r).newState := by
      rw [h2] at hb ⊢
      exact T_restart h t r hb
    rw [this]

/-- Running the machine on, over a concatenation. -/
theorem endState_append (a b : List Nat) (ha : a ≠ []) : endState (a ++ b) = foldSt (endState a) b := by
  cases a with
  | nil => exact absurd rfl ha
  | cons x a => simp [endState, foldSt, List.foldl_append]

/-! ## Widths -/

/-- Total width of segments, for a width function on runes. -/
def sw (w : Nat → Nat) (rs : List Nat) : Nat := ((segments rs).map (clusterWidth w)).sum

theorem stringWidth_eq_sw (f : Flags) (s : GoString) :
    stringWidth f s = sw (fun r => runeWidth f r) (runes s) := by
  rw [stringWidth, clusters_eq_segments]; rfl

@[simp] theorem sw_nil (w : Nat → Nat) : sw w [] = 0 := rfl

theorem sw_append (w : Nat → Nat) (a b : List Nat)
    (hb : a ≠ [] → ∀ r rs, b = r :: rs → Breaks (a.map classOf) (classOf r)) :
    sw w (a ++ b) = sw w a + sw w b := by
  by_cases ha : a = []
  · subst ha; simp
  cases b with
  | nil => simp
  | cons r b =>
    unfold sw
    rw [segments_append a r b ha (hb ha r b rfl), List.map_append, List.sum_append]

theorem clusterWidth_snoc (w : Nat → Nat) (c : List Nat) (r : Nat) :
    clusterWidth w (c ++ [r]) = if 0 < clusterWidth w c then clusterWidth w c else w r := by
  induction c with
  | nil => simp [clusterWidth]; omega
  | cons x c ih =>
    rw [List.cons_append, clusterWidth, clusterWidth]
    by_cases h : 0 < w x
    · simp [h]
    · rw [if_neg h, if_neg h, ih]

/-- Width of the rest of the text, given the state and the width of the cluster so far. -/
def swFrom (w : Nat → Nat) (st cw : Nat) : List Nat → Nat
  | [] => cw
  | r :: rs =>
    if (T st r).boundary then cw + swFrom w (T st r).newState (w r) rs
    else swFrom w (T st r).newState (if 0 < cw then cw else w r) rs

theorem segs_sum (w : Nat → Nat) (st : Nat) (cur rs : List Nat) :
    ((segs st cur rs).map (clusterWidth w)).sum = swFrom w st (clusterWidth w cur) rs := by
  induction rs generalizing st cur with
  | nil => simp [segs, swFrom]
  | cons r rs ih =>
    rw [segs, swFrom]
    split
    · rw [List.map_cons, List.sum_cons, ih]
      congr 1
      congr 1
      simp only [clusterWidth]
      split <;> omega
    · rw [ih, clusterWidth_snoc]

theorem sw_cons (w : Nat → Nat) (r : Nat) (rs : List Nat) :
    sw w (r :: rs) = swFrom w (T (-1) r).newState (w r) rs := by
  rw [sw, segments, segs_sum]
  congr 1
  simp only [clusterWidth]
  split <;> omega

theorem clusterWidth_le_sum (w : Nat → Nat) (c : List Nat) : clusterWidth w c ≤ (c.map w).sum := by
  induction c with
  | nil => simp [clusterWidth]
  | cons x c ih =>
    rw [clusterWidth, List.map_cons, List.sum_cons]
    split <;> omega

theorem clusterWidth_le_bound (w : Nat → Nat) (b : Nat) (hw : ∀ r, w r ≤ b) (c : List Nat) :
    clusterWidth w c ≤ b := by
  induction c with
  | nil => simp [clusterWidth]
  | cons x c ih =>
    rw [clusterWidth]
    split
    · exact hw x
    · exact ih

theorem sum_map_flatten_le (w : Nat → Nat) (cs : List (List Nat)) :
    (cs.map (clusterWidth w)).sum ≤ (cs.flatten.map w).sum := by
  induction cs with
  | nil => simp
  | cons c cs ih =>
    have := clusterWidth_le_sum w c
    simp only [List.map_cons, List.sum_cons, List.flatten_cons, List.map_append, List.sum_append]
    omega

theorem sw_le_sum (w : Nat → Nat) (rs : List Nat) : sw w rs ≤ (rs.map w).sum := by
  have := sum_map_flatten_le w (segments rs)
  rwa [segments_flatten] at this

theorem clusterWidth_mono (w w' : Nat → Nat) (hle : ∀ r, w r ≤ w' r) (hz : ∀ r, w r = 0 → w' r = 0)
    (c : List Nat) : clusterWidth w c ≤ clusterWidth w' c := by
  induction c with
  | nil => simp [clusterWidth]
  | cons x c ih =>
    rw [clusterWidth, clusterWidth]
    have h1 := hle x
    have h2 := hz x
    split <;> split <;> omega

theorem sw_mono (w w' : Nat → Nat) (hle : ∀ r, w r ≤ w' r) (hz : ∀ r, w r = 0 → w' r = 0)
    (rs : List Nat) : sw w rs ≤ sw w' rs := by
  unfold sw
  generalize segments rs = cs
  induction cs with
  | nil => simp
  | cons c cs ih =>
    have := clusterWidth_mono w w' hle hz c
    simp only [List.map_cons, List.sum_cons]; omega

/-! ## When the rules break -/

theorem breaks_other (left : List GCB) (h : left.getLast? ≠ some .prepend) : Breaks left .other := by
  unfold Breaks GB3 GB4 GB5 GB6 GB7 GB8 GB9 GB9a GB9b GB11 GB12_13
  simp [h]

theorem breaks_control (left : List GCB) : Breaks left .control := by
  unfold Breaks GB3 GB5; simp

theorem breaks_after_other (left : List GCB) (c : GCB) (h : left.getLast? = some .other)
    (h1 : c ≠ .extend) (h2 : c ≠ .zwj) (h3 : c ≠ .spacingMark) : Breaks left c := by
  have hri : ¬ GB12_13 left c := by
    rintro ⟨⟨p, k, hp, _⟩, _⟩
    rw [hp, List.replicate_succ', ← List.append_assoc] at h
    simp at h
  have hep : ¬ GB11 left c := by
    rintro ⟨⟨p, k, hp⟩, _⟩
    rw [hp] at h
    rw [List.getLast?_append] at h
    simp at h
  unfold Breaks
  refine ⟨by simp [GB3, h], Or.inr (Or.inr ?_)⟩
  simp only [hri, hep, or_false]
  simp [GB6, GB7, GB8, GB9, GB9a, GB9b, h, h1, h2, h3]

theorem breaks_after_control (left : List GCB) (c : GCB) (h : left.getLast? = some .control) :
    Breaks left c := by
  unfold Breaks GB3 GB4; simp [h]

theorem classOf_eq_other_of (r : Nat) (h : gprop r = 0) : classOf r = .other := by
  rw [gprop_eq_code] at h
  revert h; cases classOf r <;> simp [gcbCode]

/-- Printable ASCII has class Other. -/
theorem classOf_ascii (r : Nat) (h1 : 0x20 ≤ r) (h2 : r ≤ 0x7E) : classOf r = .other := by
  apply classOf_eq_other_of
  apply property_eq_zero_of_not_mem _ graphemeCodePoints_sorted
  intro e he hc
  have h : (graphemeCodePoints.all fun e => decide (e.2.1 < 0x20) || decide (0x7E < e.1)) = true := by
    decide +kernel
  have := List.all_eq_true.mp h e he
  simp only [Bool.or_eq_true, decide_eq_true_eq] at this
  omega

/-- U+001B is a Control. -/
theorem classOf_esc : classOf 0x1B = .control := by decide +kernel
theorem classOf_9b : classOf 0x9B = .control := by decide +kernel

end GoTable
