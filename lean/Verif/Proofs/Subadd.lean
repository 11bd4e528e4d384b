import Verif.Proofs.StringWidth
/-! StringWidth is subadditive. -/

namespace GoTable
open Spec

theorem T_eq (st : Int) (r : Nat) : T st r = transitionProp st (gcbCode (classOf r)) := by
  unfold T transitionGraphemeState
  rw [show property graphemeCodePoints r = gcbCode (classOf r) from gprop_eq_code r]

theorem tp7 (c : GCB) (h1 : c ≠ .extend) (h2 : c ≠ .zwj) :
    transitionProp 7 (gcbCode c) = transitionProp 0 (gcbCode c) := by
  have H : ∀ c ∈ allGCB, c ≠ .extend → c ≠ .zwj →
      transitionProp 7 (gcbCode c) = transitionProp 0 (gcbCode c) := by decide +kernel
  exact H c (mem_allGCB c) h1 h2
theorem tp7e : transitionProp 7 (gcbCode .extend) = ⟨7, 6, false⟩ := by decide +kernel
theorem tp7z : transitionProp 7 (gcbCode .zwj) = ⟨8, 14, false⟩ := by decide +kernel
theorem tp0e : transitionProp 0 (gcbCode .extend) = ⟨0, 6, false⟩ := by decide +kernel
theorem tp0z : transitionProp 0 (gcbCode .zwj) = ⟨0, 14, false⟩ := by decide +kernel
theorem tp8 (c : GCB) (h1 : c ≠ .extPict) :
    transitionProp 8 (gcbCode c) = transitionProp 0 (gcbCode c) := by
  have H : ∀ c ∈ allGCB, c ≠ .extPict →
      transitionProp 8 (gcbCode c) = transitionProp 0 (gcbCode c) := by decide +kernel
  exact H c (mem_allGCB c) h1
theorem tp8p : transitionProp 8 (gcbCode .extPict) = ⟨7, 15, false⟩ := by decide +kernel
theorem tp0p : transitionProp 0 (gcbCode .extPict) = ⟨7, 15, true⟩ := by decide +kernel
theorem tp10 (c : GCB) (h1 : c ≠ .ri) :
    transitionProp 10 (gcbCode c) = transitionProp 9 (gcbCode c) := by
  have H : ∀ c ∈ allGCB, c ≠ .ri →
      transitionProp 10 (gcbCode c) = transitionProp 9 (gcbCode c) := by decide +kernel
  exact H c (mem_allGCB c) h1
theorem tp10r : transitionProp 10 (gcbCode .ri) = ⟨9, 7, true⟩ := by decide +kernel
theorem tp9r : transitionProp 9 (gcbCode .ri) = ⟨10, 7, false⟩ := by decide +kernel

variable (w : Nat → Nat)

/-- Same state, clusters so far of different width. -/
theorem swFrom_le_same (st c1 c2 : Nat) (rs : List Nat) (h : 0 < c1 ∨ c1 = c2) :
    swFrom w st c1 rs ≤ c1 + swFrom w st c2 rs := by
  induction rs generalizing st c1 c2 with
  | nil => simp [swFrom]
  | cons r rs ih =>
    rw [swFrom, swFrom]
    split
    · omega
    · rcases h with h | h
      · rw [if_pos h]; exact ih _ _ _ (Or.inl h)
      · subst h; omega

/-- A pictograph is pending in one run and not in the other. -/
theorem swFrom_le_pict (st c0 cA cB : Nat) (rs : List Nat) (hst : st = 7 ∨ st = 8)
    (h : (cA = c0 ∧ 0 < c0) ∨ cA = cB) :
    swFrom w st cA rs ≤ c0 + swFrom w 0 cB rs := by
  induction rs generalizing st cA cB with
  | nil => simp only [swFrom]; omega
  | cons r rs ih =>
    have hgen : T (st : Nat) r = T (0 : Nat) r →
        swFrom w st cA (r :: rs) ≤ c0 + swFrom w 0 cB (r :: rs) := by
      intro heq
      rw [swFrom, swFrom, heq]
      split
      · omega
      · rcases h with ⟨h, h0⟩ | h
        · subst h; rw [if_pos h0]; exact swFrom_le_same w _ _ _ _ (Or.inl h0)
        · subst h; omega
    have hstep : ∀ st', (st' = 7 ∨ st' = 8) → (T (st : Nat) r).newState = st' → (T (st : Nat) r).boundary = false →
        (T (0 : Nat) r).newState = 0 → (T (0 : Nat) r).boundary = false →
        swFrom w st cA (r :: rs) ≤ c0 + swFrom w 0 cB (r :: rs) := by
      intro st' hst' h1 h2 h3 h4
      rw [swFrom, swFrom, h1, h2, h3, h4]
      simp only [Bool.false_eq_true, if_false]
      apply ih st' _ _ hst'
      rcases h with ⟨h, h0⟩ | h
      · left; rw [h, if_pos h0]; exact ⟨rfl, h0⟩
      · right; rw [h]
    have h0 := T_eq (0 : Nat) r
    rcases hst with rfl | rfl
    · have h7 := T_eq (7 : Nat) r
      by_cases he : classOf r = .extend
      · rw [he] at h7 h0
        have h7' := h7.trans tp7e
        have h0' := h0.trans tp0e
        exact hstep 7 (Or.inl rfl) (by rw [h7']) (by rw [h7']) (by rw [h0']) (by rw [h0'])
      by_cases hz : classOf r = .zwj
      · rw [hz] at h7 h0
        have h7' := h7.trans tp7z
        have h0' := h0.trans tp0z
        exact hstep 8 (Or.inr rfl) (by rw [h7']) (by rw [h7']) (by rw [h0']) (by rw [h0'])
      · exact hgen (by rw [h7, h0]; exact tp7 _ he hz)
    · have h8 := T_eq (8 : Nat) r
      by_cases hp : classOf r = .extPict
      · rw [hp] at h8 h0
        have h8' := h8.trans tp8p
        have h0' := h0.trans tp0p
        rw [swFrom, swFrom, h8', h0']
        simp only [Bool.false_eq_true, if_false, if_true]
        by_cases hA : 0 < cA
        · rw [if_pos hA]
          have := swFrom_le_same w 7 cA (w r) rs (Or.inl hA)
          rcases h with ⟨h, _⟩ | h <;> omega
        · rw [if_neg hA]; omega
      · exact hgen (by rw [h8, h0]; exact tp8 _ hp)

/-- Runs of regional indicators that are out of step. `k` is the width of every indicator. -/
theorem swFrom_le_ri (k : Nat) (hk : 0 < k) (hw : ∀ r, classOf r = .ri → w r = k) (rs : List Nat) :
    (∀ c0, 0 < c0 → swFrom w 10 c0 rs ≤ c0 + swFrom w 9 k rs) ∧
    swFrom w 9 k rs ≤ swFrom w 10 k rs := by
  induction rs with
  | nil => exact ⟨fun c0 _ => by simp [swFrom], by simp [swFrom]⟩
  | cons r rs ih =>
    have h10 := T_eq (10 : Nat) r
    have h9 := T_eq (9 : Nat) r
    by_cases hr : classOf r = .ri
    · have hwr := hw r hr
      rw [hr] at h10 h9
      have h10' := h10.trans tp10r
      have h9' := h9.trans tp9r
      constructor
      · intro c0 _
        rw [swFrom, swFrom, h10', h9', hwr]
        simp only [Bool.false_eq_true, if_false, if_true, hk]
        have := ih.2
        omega
      · rw [swFrom, swFrom, h10', h9', hwr]
        simp only [Bool.false_eq_true, if_false, if_true, hk]
        exact ih.1 k hk
    · have heq : T (10 : Nat) r = T (9 : Nat) r := by rw [h10, h9]; exact tp10 _ hr
      constructor
      · intro c0 h0
        rw [swFrom, swFrom, heq]
        split
        · omega
        · exact swFrom_le_same w _ _ _ _ (Or.inl h0)
      · rw [swFrom, swFrom, heq]; exact Nat.le_refl _

theorem newState_nine (st : Nat) (hst : st ≤ 10) (r : Nat) (h : (T st r).newState = 9) :
    classOf r = .ri := by
  have H : ∀ st ∈ List.range 11, ∀ c ∈ allGCB,
      (transitionProp (st : Nat) (gcbCode c)).newState = 9 → c = .ri := by decide +kernel
  rw [T_eq] at h
  exact H st (by rw [List.mem_range]; omega) _ (mem_allGCB _) h

theorem newState_nine_start (r : Nat) (h : (T (-1) r).newState = 9) : classOf r = .ri := by
  have H : ∀ c ∈ allGCB,
      (transitionProp (-1) (gcbCode c)).newState = 9 → c = .ri := by decide +kernel
  rw [T_eq] at h
  exact H _ (mem_allGCB _) h

/-- Splitting a run: a finished part and the width of the current cluster. -/
theorem swFrom_append (k : Nat) (hk : 0 < k) (hw : ∀ r, classOf r = .ri → w r = k)
    (st c : Nat) (a : List Nat) (hst : st ≤ 10) (h9 : st = 9 → 0 < c) :
    ∃ base cw, swFrom w st c a = base + cw ∧ (foldSt st a = 9 → 0 < cw) ∧
      ∀ b, swFrom w st c (a ++ b) = base + swFrom w (foldSt st a) cw b := by
  induction a generalizing st c with
  | nil => exact ⟨0, c, by simp [swFrom], h9, fun b => by simp [foldSt]⟩
  | cons r a ih =>
    have hle := T_newState_le st r
    by_cases hb : (T st r).boundary = true
    · obtain ⟨base, cw, h1, h2, h3⟩ := ih (T st r).newState (w r) hle (by
        intro h; rw [hw r (newState_nine st hst r h)]; exact hk)
      refine ⟨c + base, cw, ?_, h2, ?_⟩
      · rw [swFrom, if_pos hb, h1]; omega
      · intro b
        rw [List.cons_append, swFrom, if_pos hb, h3]
        show _ = c + base + swFrom w (foldSt (T st r).newState a) cw b
        omega
    · obtain ⟨base, cw, h1, h2, h3⟩ := ih (T st r).newState (if 0 < c then c else w r) hle (by
        intro h
        have := hw r (newState_nine st hst r h)
        split <;> omega)
      refine ⟨base, cw, ?_, h2, ?_⟩
      · rw [swFrom, if_neg hb, h1]
      · intro b
        rw [List.cons_append, swFrom, if_neg hb, h3]
        rfl

theorem join_states (h c : GCB) (ep ri : Bool)
    (hb : (transitionProp (stF h ep ri : Nat) (gcbCode c)).boundary = false) :
    let A := (transitionProp (stF h ep ri : Nat) (gcbCode c)).newState
    let B := (transitionProp (-1) (gcbCode c)).newState
    A = B ∨ ((A = 7 ∨ A = 8) ∧ B = 0) ∨ (A = 10 ∧ B = 9 ∧ c = .ri ∧ stF h ep ri = 9) := by
  have H : ∀ h ∈ allGCB, ∀ c ∈ allGCB, ∀ ep ∈ [true, false], ∀ ri ∈ [true, false],
    (transitionProp (stF h ep ri : Nat) (gcbCode c)).boundary = false →
    let A := (transitionProp (stF h ep ri : Nat) (gcbCode c)).newState
    let B := (transitionProp (-1) (gcbCode c)).newState
    A = B ∨ ((A = 7 ∨ A = 8) ∧ B = 0) ∨ (A = 10 ∧ B = 9 ∧ c = .ri ∧ stF h ep ri = 9) := by
    decide +kernel
  exact H h (mem_allGCB h) c (mem_allGCB c) ep (by cases ep <;> simp) ri (by cases ri <;> simp) hb

/-- Joining texts never adds width. -/
theorem sw_subadditive (k : Nat) (hk : 0 < k) (hw : ∀ r, classOf r = .ri → w r = k)
    (a b : List Nat) : sw w (a ++ b) ≤ sw w a + sw w b := by
  by_cases ha : a = []
  · subst ha; simp
  cases b with
  | nil => simp
  | cons r b =>
    by_cases hbr : Breaks (a.map classOf) (classOf r)
    · rw [sw_append w a (r :: b) (by rintro _ r' rs h; cases h; exact hbr)]
      exact Nat.le_refl _
    · rw [← T_endState_boundary a ha] at hbr
      obtain ⟨h, t, _, h2⟩ := endState_stOf a ha
      cases a with
      | nil => exact absurd rfl ha
      | cons x a =>
        obtain ⟨base, cw, h3, h4, h5⟩ := swFrom_append w k hk hw (T (-1) x).newState (w x) a
          (T_newState_le _ _) (by
            intro h; rw [hw x (newState_nine_start x h)]; exact hk)
        rw [List.cons_append, sw_cons, sw_cons, sw_cons, h3, h5]
        have he : foldSt (T (-1) x).newState a = endState (x :: a) := rfl
        rw [he] at h4 ⊢
        rw [swFrom, if_neg hbr]
        have hb' : (transitionProp (stF h (epExt t) (riOdd t) : Nat) (gcbCode (classOf r))).boundary
            = false := by
          rw [← T_eq]
          have : stF h (epExt t) (riOdd t) = endState (x :: a) := h2.symm
          rw [this]
          simpa using hbr
        have hj := join_states h (classOf r) (epExt t) (riOdd t) hb'
        dsimp only at hj
        rw [← T_eq, ← T_eq] at hj
        have h2' : stF h (epExt t) (riOdd t) = endState (x :: a) := h2.symm
        rw [h2'] at hj
        suffices hs : swFrom w (T (endState (x :: a)) r).newState (if 0 < cw then cw else w r) b
            ≤ cw + swFrom w (T (-1) r).newState (w r) b by omega
        rcases hj with hj | ⟨hj1, hj2⟩ | ⟨hj1, hj2, hj3, hj4⟩
        · rw [hj]
          by_cases hc : 0 < cw
          · rw [if_pos hc]; exact swFrom_le_same w _ _ _ _ (Or.inl hc)
          · rw [if_neg hc]; omega
        · rw [hj2]
          apply swFrom_le_pict w _ _ _ _ _ hj1
          by_cases hc : 0 < cw
          · rw [if_pos hc]; exact Or.inl ⟨rfl, hc⟩
          · rw [if_neg hc]; exact Or.inr rfl
        · have hc := h4 hj4
          rw [hj1, hj2, if_pos hc, hw r hj3]
          exact (swFrom_le_ri w k hk hw b).1 cw hc

/-! The regional indicators have width 1. -/

theorem ri_range (r : Nat) (h : classOf r = .ri) : 0x1F1E6 ≤ r ∧ r ≤ 0x1F1FF := by
  have hp : gprop r = 7 := by rw [gprop_eq_code, h]; rfl
  rcases propertySearch_correct _ graphemeCodePoints_sorted r with ⟨e, he, h1, h2, heq⟩ | ⟨_, heq⟩
  · have h3 : e.2.2 = 7 := by
      rw [← hp]; unfold gprop property; rw [heq]
    have H : (graphemeCodePoints.all fun e => e.2.2 != 7 || (e.1 == 0x1F1E6 && e.2.1 == 0x1F1FF)) = true := by
      decide +kernel
    have := List.all_eq_true.mp H e he
    rw [h3] at this
    simp at this
    omega
  · unfold gprop property at hp; rw [heq] at hp; simp at hp

theorem runeWidth_ri (f : Flags) (r : Nat) (h : classOf r = .ri) : runeWidth f r = 1 := by
  obtain ⟨h1, h2⟩ := ri_range r h
  have hin : InIntervals r [(0x1F1E6, 0x1F1FF)] := ⟨_, List.mem_singleton.mpr rfl, h1, h2⟩
  have e1 : ¬ ZeroWidth r := by
    rintro (hz | hz)
    · exact disjointB_sound (a := [(0x1F1E6, 0x1F1FF)]) (b := nonprint) (by decide +kernel) r hin hz
    · exact disjointB_sound (a := [(0x1F1E6, 0x1F1FF)]) (b := combining) (by decide +kernel) r hin hz
  have e2 : ¬ InIntervals r doublewidth := fun hz =>
    disjointB_sound (a := [(0x1F1E6, 0x1F1FF)]) (b := doublewidth) (by decide +kernel) r hin hz
  have e3 : ¬ InIntervals r ambiguous := fun hz =>
    disjointB_sound (a := [(0x1F1E6, 0x1F1FF)]) (b := ambiguous) (by decide +kernel) r hin hz
  have e4 : ¬ InIntervals r emoji := fun hz =>
    disjointB_sound (a := [(0x1F1E6, 0x1F1FF)]) (b := emoji) (by decide +kernel) r hin hz
  rw [runeWidth_eq_plain]
  unfold plainWidth
  rw [if_neg (by omega), Int.toNat_natCast, if_neg e1]
  simp [e2, e3, e4]

theorem stringWidth_subadditive (f : Flags) (a b : GoString) (h : runes (a ++ b) = runes a ++ runes b) :
    stringWidth f (a ++ b) ≤ stringWidth f a + stringWidth f b := by
  rw [stringWidth_eq_sw, stringWidth_eq_sw, stringWidth_eq_sw, h]
  exact sw_subadditive _ 1 (by omega) (fun r hr => runeWidth_ri f r hr) _ _

end GoTable
