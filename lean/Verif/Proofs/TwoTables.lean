import Verif.Proofs.Steps
import Verif.Proofs.MonoTables
import Verif.Proofs.RuneWidth
import Verif.Spec.TwoTables
/-! The tables of package runewidth against those of package uniseg, on all code points. -/

namespace GoTable
open Spec

theorem newWide_sorted : SortedIntervals newWide := sortedB_sound _ (by decide +kernel)
theorem otherZero_sorted : SortedIntervals otherZero := sortedB_sound _ (by decide +kernel)
theorem wideMarks_sorted : SortedIntervals wideMarks := sortedB_sound _ (by decide +kernel)

theorem stepAt_isWide (r : Nat) : isWide r = true ↔
    stepAt 0 (rowSteps eastAsianWidth) r = prW ∨ stepAt 0 (rowSteps eastAsianWidth) r = prF := by
  rw [stepAt_rows _ eastAsianWidth_sorted]
  unfold isWide
  cases rowValue eastAsianWidth r <;> simp [prW, prF]

theorem stepAt_isAmbiguous (r : Nat) : isAmbiguous r = true ↔ stepAt 0 (rowSteps eastAsianWidth) r = prA := by
  rw [stepAt_rows _ eastAsianWidth_sorted]
  unfold isAmbiguous
  cases rowValue eastAsianWidth r <;> simp [prA]

theorem ite_one_iff {P : Prop} [Decidable P] : (if P then 1 else 0 : Nat) = 1 ↔ P := by split <;> simp [*]

theorem doublewidth_iff (r : Nat) : InIntervals r doublewidth ↔ isWide r = true ∧ ¬ InIntervals r newWide := by
  have h := stepAt_check (fun v : Nat × Nat × Nat =>
      decide (v.2.1 = 1 ↔ (v.1 = prW ∨ v.1 = prF) ∧ ¬ v.2.2 = 1)) 0 (0, 0, 0)
    (zipSteps 0 (0, 0) (rowSteps eastAsianWidth)
      (zipSteps 0 0 (rowSteps (marked doublewidth)) (rowSteps (marked newWide))))
    r (by decide +kernel) (Nat.zero_le r)
  rw [stepAt_zip, stepAt_zip, stepAt_marked _ doublewidth_sorted, stepAt_marked _ newWide_sorted,
    decide_eq_true_eq] at h
  rw [stepAt_isWide]
  simpa only [ite_one_iff] using h

theorem newWide_wide (r : Nat) (hn : InIntervals r newWide) : isWide r = true := by
  have h := stepAt_check (fun v : Nat × Nat => decide (v.2 = 1 → (v.1 = prW ∨ v.1 = prF))) 0 (0, 0)
    (zipSteps 0 0 (rowSteps eastAsianWidth) (rowSteps (marked newWide))) r (by decide +kernel)
    (Nat.zero_le r)
  rw [stepAt_zip, stepAt_marked _ newWide_sorted, decide_eq_true_eq] at h
  rw [stepAt_isWide]
  simp only [ite_one_iff] at h
  exact h hn

theorem ambiguous_iff (r : Nat) : InIntervals r ambiguous ↔ isAmbiguous r = true := by
  have h := stepAt_check (fun v : Nat × Nat => decide (v.2 = 1 ↔ v.1 = prA)) 0 (0, 0)
    (zipSteps 0 0 (rowSteps eastAsianWidth) (rowSteps (marked ambiguous))) r (by decide +kernel)
    (Nat.zero_le r)
  rw [stepAt_zip, stepAt_marked _ ambiguous_sorted, decide_eq_true_eq] at h
  rw [stepAt_isAmbiguous]
  simpa only [ite_one_iff] using h

/-- Code points that the tables or the code treat one by one. -/
def singled : List (Nat × Nat × Nat) := [(0xA9, 0xA9, 1), (0xAE, 0xAE, 1), (0x2E3A, 0x2E3A, 2), (0x2E3B, 0x2E3B, 3)]

theorem stepAt_singled (r : Nat) : stepAt 0 (rowSteps singled) r =
    if r = 0xA9 ∨ r = 0xAE then 1 else if r = 0x2E3A then 2 else if r = 0x2E3B then 3 else 0 := by
  simp only [singled, rowSteps, stepAt]
  split <;> split <;> (repeat' split) <;> omega

theorem stepAt_class (r : Nat) : stepAt 0 (rowSteps graphemeCodePoints) r = gcbCode (classOf r) := by
  rw [stepAt_rows _ graphemeCodePoints_sorted, ← property_eq_rowValue _ graphemeCodePoints_sorted]
  exact gprop_eq_code r

theorem code_extPict (c : GCB) : gcbCode c = 15 ↔ c = .extPict := by cases c <;> simp [gcbCode]

theorem code_takesNone (r : Nat) : (gcbCode (classOf r) = 5 ∨ gcbCode (classOf r) = 3 ∨ gcbCode (classOf r) = 4 ∨
    gcbCode (classOf r) = 6 ∨ gcbCode (classOf r) = 14) ↔ TakesNone r := by
  unfold TakesNone
  cases classOf r <;> simp [gcbCode]

theorem emoji_iff (r : Nat) : InIntervals r emoji ↔ classOf r = .extPict ∧ r ≠ 0xA9 ∧ r ≠ 0xAE := by
  have h := stepAt_check (fun v : Nat × Nat × Nat => decide (v.2.1 = 1 ↔ v.1 = 15 ∧ ¬ v.2.2 = 1)) 0 (0, 0, 0)
    (zipSteps 0 (0, 0) (rowSteps graphemeCodePoints) (zipSteps 0 0 (rowSteps (marked emoji)) (rowSteps singled)))
    r (by decide +kernel) (Nat.zero_le r)
  rw [stepAt_zip, stepAt_zip, stepAt_marked _ emoji_sorted, stepAt_class, stepAt_singled, decide_eq_true_eq] at h
  simp only [ite_one_iff, code_extPict] at h
  rw [h]
  refine and_congr_right fun _ => ?_
  split
  · rename_i h1; constructor
    · intro h2; exact absurd rfl h2
    · intro h2; omega
  · rename_i h1
    constructor
    · intro _; omega
    · intro _; repeat' split
      all_goals omega

theorem zero_class (r : Nat) (hz : ZeroWidth r) : TakesNone r ∨ InIntervals r otherZero := by
  have h := stepAt_check (fun v : Nat × Nat × Nat × Nat => decide (v.2.1 = 1 ∨ v.2.2.1 = 1 →
      (v.1 = 5 ∨ v.1 = 3 ∨ v.1 = 4 ∨ v.1 = 6 ∨ v.1 = 14) ∨ v.2.2.2 = 1)) 0 (0, 0, 0, 0)
    (zipSteps 0 (0, 0, 0) (rowSteps graphemeCodePoints) (zipSteps 0 (0, 0) (rowSteps (marked nonprint))
      (zipSteps 0 0 (rowSteps (marked combining)) (rowSteps (marked otherZero)))))
    r (by decide +kernel) (Nat.zero_le r)
  rw [stepAt_zip, stepAt_zip, stepAt_zip, stepAt_marked _ nonprint_sorted, stepAt_marked _ combining_sorted,
    stepAt_marked _ otherZero_sorted, stepAt_class, decide_eq_true_eq] at h
  simp only [ite_one_iff, code_takesNone] at h
  exact h hz

theorem otherZero_zero (r : Nat) (h : InIntervals r otherZero) : ZeroWidth r ∧ ¬ TakesNone r := by
  have h' := stepAt_check (fun v : Nat × Nat × Nat × Nat => decide (v.2.2.2 = 1 → (v.2.1 = 1 ∨ v.2.2.1 = 1) ∧
      ¬ (v.1 = 5 ∨ v.1 = 3 ∨ v.1 = 4 ∨ v.1 = 6 ∨ v.1 = 14))) 0 (0, 0, 0, 0)
    (zipSteps 0 (0, 0, 0) (rowSteps graphemeCodePoints) (zipSteps 0 (0, 0) (rowSteps (marked nonprint))
      (zipSteps 0 0 (rowSteps (marked combining)) (rowSteps (marked otherZero)))))
    r (by decide +kernel) (Nat.zero_le r)
  rw [stepAt_zip, stepAt_zip, stepAt_zip, stepAt_marked _ nonprint_sorted, stepAt_marked _ combining_sorted,
    stepAt_marked _ otherZero_sorted, stepAt_class, decide_eq_true_eq] at h'
  simp only [ite_one_iff, code_takesNone] at h'
  exact h' h

theorem marks_count :
    (List.range 0x110000).countP (fun r => decide (TakesNone r)) = 5984 ∧
    (List.range 0x110000).countP (fun r => decide (TakesNone r ∧ ¬ ZeroWidth r)) = 5429 := by
  have hz : ∀ r, stepAt (0, 0, 0) (zipSteps 0 (0, 0) (rowSteps graphemeCodePoints)
      (zipSteps 0 0 (rowSteps (marked nonprint)) (rowSteps (marked combining)))) r =
      (gcbCode (classOf r), (if InIntervals r nonprint then 1 else 0), (if InIntervals r combining then 1 else 0)) := by
    intro r
    rw [stepAt_zip, stepAt_zip, stepAt_marked _ nonprint_sorted, stepAt_marked _ combining_sorted, stepAt_class]
  have h1 := countP_steps (fun v : Nat × Nat × Nat => decide (v.1 = 5 ∨ v.1 = 3 ∨ v.1 = 4 ∨ v.1 = 6 ∨ v.1 = 14))
    0x110000 0 (0, 0, 0) (zipSteps 0 (0, 0) (rowSteps graphemeCodePoints)
      (zipSteps 0 0 (rowSteps (marked nonprint)) (rowSteps (marked combining))))
  have h2 := countP_steps (fun v : Nat × Nat × Nat => decide ((v.1 = 5 ∨ v.1 = 3 ∨ v.1 = 4 ∨ v.1 = 6 ∨ v.1 = 14) ∧
      ¬ (v.2.1 = 1 ∨ v.2.2 = 1)))
    0x110000 0 (0, 0, 0) (zipSteps 0 (0, 0) (rowSteps graphemeCodePoints)
      (zipSteps 0 0 (rowSteps (marked nonprint)) (rowSteps (marked combining))))
  simp only [hz, code_takesNone, ite_one_iff] at h1 h2
  rw [Nat.sub_zero, ← List.range_eq_range'] at h1 h2
  exact ⟨h1.trans (by decide +kernel), h2.trans (by decide +kernel)⟩

/-- The width in package runewidth from membership in the six tables. -/
def widthAll (ea strict : Bool) (n c d a m e : Nat) : Nat :=
  if n = 1 ∨ c = 1 then 0
  else if ea = false then if d = 1 then 2 else 1
  else if m = 1 then 1
  else if a = 1 ∨ d = 1 then 2
  else if strict = false ∧ e = 1 then 2
  else 1

/-- The six tables side by side. -/
def sixTables : List (Nat × Nat × Nat × Nat × Nat × Nat × Nat) :=
  zipSteps 0 (0, 0, 0, 0, 0) (rowSteps (marked nonprint)) (zipSteps 0 (0, 0, 0, 0) (rowSteps (marked combining))
    (zipSteps 0 (0, 0, 0) (rowSteps (marked doublewidth)) (zipSteps 0 (0, 0) (rowSteps (marked ambiguous))
      (zipSteps 0 0 (rowSteps (marked narrow)) (rowSteps (marked emoji))))))

theorem width_count (f : Flags) (k : Nat) :
    (List.range 0x110000).countP (fun r : Nat => decide (runeWidth f r = k)) =
      countSteps (fun v : Nat × Nat × Nat × Nat × Nat × Nat => decide (widthAll f.eastAsianWidth f.strictEmojiNeutral
        v.1 v.2.1 v.2.2.1 v.2.2.2.1 v.2.2.2.2.1 v.2.2.2.2.2 = k)) 0x110000 0 (0, 0, 0, 0, 0, 0) sixTables := by
  rw [← countP_steps, Nat.sub_zero, ← List.range_eq_range']
  apply List.countP_congr
  intro r hr
  rw [List.mem_range] at hr
  rw [sixTables, stepAt_zip, stepAt_zip, stepAt_zip, stepAt_zip, stepAt_zip, stepAt_marked _ nonprint_sorted,
    stepAt_marked _ combining_sorted, stepAt_marked _ doublewidth_sorted, stepAt_marked _ ambiguous_sorted,
    stepAt_marked _ narrow_sorted, stepAt_marked _ emoji_sorted, runeWidth_eq_plain, plainWidth, if_neg (by omega),
    widthAll]
  simp only [ite_one_iff, Int.toNat_natCast, ZeroWidth]

/-- The rows of `differ` with both widths in one number. -/
def differRows : List (Nat × Nat × Nat) := differ.map fun e => (e.1, e.2.1, 1 + 8 * e.2.2.1 + e.2.2.2)

theorem differRows_sorted : SortedIntervals (ranges differRows) := sortedB_sound _ (by decide +kernel)

/-- The width in package runewidth from membership in three tables. -/
def widthW (n c d : Nat) : Nat := if n = 1 ∨ c = 1 then 0 else if d = 1 then 2 else 1

/-- The width in package uniseg from class, East Asian width, emoji presentation and the two dashes. -/
def widthU (g e p x : Nat) : Nat :=
  if g = 5 ∨ g = 3 ∨ g = 4 ∨ g = 6 ∨ g = 14 then 0
  else if g = 7 then 2
  else if g = 15 then if p = prEmojiPresentation then 2 else 1
  else if x = 2 then 3
  else if x = 3 then 4
  else if e = prW ∨ e = prF then 2
  else 1

theorem stepAt_pres (r : Nat) :
    hasEmojiPresentation r = true ↔ stepAt 0 (rowSteps emojiPresentation) r = prEmojiPresentation := by
  rw [stepAt_rows _ emojiPresentation_sorted]
  unfold hasEmojiPresentation
  cases rowValue emojiPresentation r <;> simp [prEmojiPresentation]

theorem widthW_eq (f : Flags) (hf : f.eastAsianWidth = false) (r : Nat) (hr : r ≤ 0x10FFFF) :
    runeWidth f r = widthW (stepAt 0 (rowSteps (marked nonprint)) r) (stepAt 0 (rowSteps (marked combining)) r)
      (stepAt 0 (rowSteps (marked doublewidth)) r) := by
  rw [stepAt_marked _ nonprint_sorted, stepAt_marked _ combining_sorted, stepAt_marked _ doublewidth_sorted,
    runeWidth_eq_plain, plainWidth, if_neg (by omega), if_pos hf, widthW]
  simp only [ite_one_iff, Int.toNat_natCast, ZeroWidth]

theorem widthU_eq (r : Nat) :
    usRuneWidth r (gprop r) = widthU (stepAt 0 (rowSteps graphemeCodePoints) r) (stepAt 0 (rowSteps eastAsianWidth) r)
      (stepAt 0 (rowSteps emojiPresentation) r) (stepAt 0 (rowSteps singled) r) := by
  rw [usRuneWidth_eq, widthU, stepAt_class]
  simp only [← stepAt_isWide, ← stepAt_pres]
  have hs := stepAt_singled r
  have h2 : stepAt 0 (rowSteps singled) r = 2 ↔ r = 0x2E3A := by
    rw [hs]; repeat' split
    all_goals omega
  have h3 : stepAt 0 (rowSteps singled) r = 3 ↔ r = 0x2E3B := by
    rw [hs]; repeat' split
    all_goals omega
  simp only [h2, h3]
  cases classOf r <;> simp [gcbCode]

theorem differ_check (r : Nat) :
    let g := stepAt 0 (rowSteps graphemeCodePoints) r
    let w := widthW (stepAt 0 (rowSteps (marked nonprint)) r) (stepAt 0 (rowSteps (marked combining)) r)
      (stepAt 0 (rowSteps (marked doublewidth)) r)
    let u := widthU g (stepAt 0 (rowSteps eastAsianWidth) r)
      (stepAt 0 (rowSteps emojiPresentation) r) (stepAt 0 (rowSteps singled) r)
    let d := stepAt 0 (rowSteps differRows) r
    if g = 5 ∨ g = 3 ∨ g = 4 ∨ g = 6 ∨ g = 14 then d = 0 ∧ (w = 2 ↔ stepAt 0 (rowSteps (marked wideMarks)) r = 1)
    else stepAt 0 (rowSteps (marked wideMarks)) r = 0 ∧ (d = 0 ∧ w = u ∨ d = 1 + 8 * w + u ∧ u < 8 ∧ w ≠ u) := by
  have h := stepAt_check (fun v : Nat × Nat × Nat × Nat × Nat × Nat × Nat × Nat × Nat =>
      match v with
      | (g, e, p, n, c, d, m, x, y) =>
        let w := widthW n c d
        let u := widthU g e p x
        if g = 5 ∨ g = 3 ∨ g = 4 ∨ g = 6 ∨ g = 14 then decide (y = 0 ∧ (w = 2 ↔ m = 1))
        else decide (m = 0 ∧ (y = 0 ∧ w = u ∨ y = 1 + 8 * w + u ∧ u < 8 ∧ w ≠ u)))
    0 (0, 0, 0, 0, 0, 0, 0, 0, 0)
    (zipSteps 0 (0, 0, 0, 0, 0, 0, 0, 0) (rowSteps graphemeCodePoints)
      (zipSteps 0 (0, 0, 0, 0, 0, 0, 0) (rowSteps eastAsianWidth)
        (zipSteps 0 (0, 0, 0, 0, 0, 0) (rowSteps emojiPresentation)
          (zipSteps 0 (0, 0, 0, 0, 0) (rowSteps (marked nonprint))
            (zipSteps 0 (0, 0, 0, 0) (rowSteps (marked combining))
              (zipSteps 0 (0, 0, 0) (rowSteps (marked doublewidth))
                (zipSteps 0 (0, 0) (rowSteps (marked wideMarks))
                  (zipSteps 0 0 (rowSteps singled) (rowSteps differRows)))))))))
    r (by decide +kernel) (Nat.zero_le r)
  simp only [stepAt_zip] at h
  dsimp only
  split
  · rename_i h1
    rw [if_pos h1, decide_eq_true_eq] at h
    exact h
  · rename_i h1
    rw [if_neg h1, decide_eq_true_eq] at h
    exact h

end GoTable
