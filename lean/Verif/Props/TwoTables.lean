import Verif.Proofs.TwoTables
import Verif.Props.Grapheme
import Verif.Props.PlainText
/-!
# Properties: two packages, two sets of tables

C103: `RuneWidth` and the tables of package uniseg.
C104: the width of one character in `StepString` and in `RuneWidth`.
-/

namespace GoTable
open Spec

/-- C103. Without the East Asian flag a character that takes cells takes two exactly if the tables of package uniseg call
it wide or fullwidth and it is not one of the characters of `newWide`. -/
theorem C103_without_flag (f : Flags) (hf : f.eastAsianWidth = false) (r : Nat) (h0 : runeWidth f r ≠ 0) :
    runeWidth f r = if isWide r = true ∧ ¬ InIntervals r newWide then 2 else 1 := by
  rw [runeWidth_eq_plain] at h0 ⊢
  unfold plainWidth at h0 ⊢
  split
  · rename_i h; rw [if_pos h] at h0; exact absurd rfl h0
  · rename_i h
    rw [if_neg h] at h0
    split
    · rename_i h1; rw [if_pos h1] at h0; exact absurd rfl h0
    · simp only [Int.toNat_natCast, doublewidth_iff]

/-- An ideograph, a letter, and the melting face of Unicode 14, which is wide. -/
example : runeWidth ⟨false, true⟩ 0x6F22 = 2 ∧ runeWidth ⟨false, true⟩ 0x61 = 1 ∧
    isWide 0x1FAE0 = true ∧ runeWidth ⟨false, true⟩ 0x1FAE0 = 1 := by decide +kernel

theorem narrow_not_ambiguous (r : Nat) (h : InIntervals r narrow) : ¬ InIntervals r ambiguous :=
  fun h2 => disjointB_sound (a := narrow) (b := ambiguous) (by decide +kernel) r h h2

theorem narrow_not_emoji (r : Nat) (h : InIntervals r narrow) : ¬ InIntervals r emoji :=
  fun h2 => disjointB_sound (a := narrow) (b := emoji) (by decide +kernel) r h h2

/-- C103. With the flag the ambiguous characters take two cells as well and, when strict emoji neutrality is off, the
pictographs other than © and ®. -/
theorem C103_with_flag (f : Flags) (hf : f.eastAsianWidth = true) (r : Nat) (h0 : runeWidth f r ≠ 0) :
    runeWidth f r =
      if isAmbiguous r = true ∨ (isWide r = true ∧ ¬ InIntervals r newWide) ∨
        (f.strictEmojiNeutral = false ∧ classOf r = .extPict ∧ r ≠ 0xA9 ∧ r ≠ 0xAE) then 2 else 1 := by
  rw [runeWidth_eq_plain] at h0 ⊢
  unfold plainWidth at h0 ⊢
  split
  · rename_i h; rw [if_pos h] at h0; exact absurd rfl h0
  · rename_i h
    rw [if_neg h] at h0
    split
    · rename_i h1; rw [if_pos h1] at h0; exact absurd rfl h0
    · rw [if_neg (by simp [hf])]
      simp only [Int.toNat_natCast, ← doublewidth_iff, ← ambiguous_iff, ← emoji_iff]
      by_cases hn : InIntervals r narrow
      · have h1 := narrow_not_ambiguous r hn
        have h2 := narrow_not_emoji r hn
        have h3 := narrow_not_double r hn
        simp [hn, h1, h2, h3]
      · rw [if_neg hn]
        by_cases h1 : InIntervals r ambiguous ∨ InIntervals r doublewidth
        · rw [if_pos h1, if_pos (by rcases h1 with h1 | h1; exacts [.inl h1, .inr (.inl h1)])]
        · rw [if_neg h1]
          have h2 : (InIntervals r ambiguous ∨ InIntervals r doublewidth ∨
              f.strictEmojiNeutral = false ∧ InIntervals r emoji) ↔
              f.strictEmojiNeutral = false ∧ InIntervals r emoji := by
            constructor
            · rintro (h2 | h2 | h2)
              exacts [absurd (.inl h2) h1, absurd (.inr h2) h1, h2]
            · exact fun h2 => .inr (.inr h2)
          simp only [h2]

/-- An ambiguous letter, a heart, the copyright sign. -/
example : runeWidth ⟨true, true⟩ 0x3A9 = 2 ∧ runeWidth ⟨true, true⟩ 0x2763 = 1 ∧ runeWidth ⟨true, false⟩ 0x2763 = 2 ∧
    classOf 0xA9 = .extPict ∧ runeWidth ⟨true, false⟩ 0xA9 = 1 := by decide +kernel

/-- C103. A character without width is of a class that takes no cell of its own, or among the code points of
`otherZero`. -/
theorem C103_zero (f : Flags) (r : Nat) (hr : r ≤ 0x10FFFF) :
    (runeWidth f r = 0 → TakesNone r ∨ InIntervals r otherZero) ∧
    (InIntervals r otherZero → runeWidth f r = 0 ∧ ¬ TakesNone r) := by
  have hw : runeWidth f r = 0 ↔ ZeroWidth r := by
    rw [runeWidth_eq_plain, plainWidth_zero_iff, Int.toNat_natCast]
    exact ⟨fun h => h.resolve_left (by omega), .inr⟩
  rw [hw]
  exact ⟨zero_class r, otherZero_zero r⟩

/-- A surrogate takes no cell and is in no such class; a Hebrew point is in one, and takes a cell when measured alone. -/
example : runeWidth ⟨false, true⟩ 0xD800 = 0 ∧ TakesNone 0x5B0 ∧ runeWidth ⟨false, true⟩ 0x5B0 = 1 := by decide +kernel

/-- C103. The missing characters are 54, all of them wide. -/
theorem C103_new (f : Flags) (hf : f.eastAsianWidth = false) :
    (newWide.map fun e => e.2 + 1 - e.1).sum = 54 ∧
    ∀ r, InIntervals r newWide → isWide r = true ∧ runeWidth f r = 1 := by
  refine ⟨by decide, fun r h => ?_⟩
  have hw := newWide_wide r h
  refine ⟨hw, ?_⟩
  have hr : r ≤ 0x10FFFF := by
    obtain ⟨e, he, _, h2⟩ := h
    have : ∀ e ∈ newWide, e.2 ≤ 0x10FFFF := by decide
    exact Nat.le_trans h2 (this e he)
  have h0 : runeWidth f r ≠ 0 := by
    rw [runeWidth_eq_plain]
    intro h0
    rw [plainWidth_zero_iff, Int.toNat_natCast] at h0
    rcases h0 with h0 | h0 | h0
    · omega
    · exact disjointB_sound (a := newWide) (b := nonprint) (by decide +kernel) r h h0
    · exact disjointB_sound (a := newWide) (b := combining) (by decide +kernel) r h h0
  rw [C103_without_flag f hf r h0, if_neg (fun hn => hn.2 h)]

/-- The melting face once more, and a Katakana letter. -/
example : InIntervals 0x1FAE0 newWide ∧ InIntervals 0x1AFF0 newWide := by decide

/-- C103. How many code points take no cell, and how many take two. -/
theorem C103_census (ea strict : Bool) :
    (List.range 0x110000).countP (fun r : Nat => decide (runeWidth ⟨ea, strict⟩ r = 0)) = 2608 ∧
    (List.range 0x110000).countP (fun r : Nat => decide (runeWidth ⟨ea, strict⟩ r = 2)) =
      if ea then if strict then 321064 else 323388 else 182438 := by
  rw [width_count, width_count]
  cases ea <;> cases strict <;> decide +kernel

theorem step_one (s : GoString) (r : Nat) (h : runes s = [r]) :
    (stepString s (-1)).boundaries >>> ShiftWidth = usRuneWidth r (gprop r) := by
  have hs : s ≠ [] := by rintro rfl; simp [runes] at h
  obtain ⟨_, h2⟩ := handed_entry s s (-1) .start
  have hspec := stepString_spec s hs (-1) _ (h2 hs).1
  dsimp only at hspec
  have hd : (decodeRune s).1 = r := by
    rw [runes_of_ne_nil hs] at h
    exact (List.cons.inj h).1
  rw [hspec.2.2.1, h, hd, Nat.shiftLeft_shiftRight]
  rfl

theorem width_one (f : Flags) (s : GoString) (r : Nat) (h : runes s = [r]) : stringWidth f s = runeWidth f r := by
  have hp : Pieces (runes s) [[r]] := by
    rw [h]
    exact ⟨rfl, by simp, fun i h0 hi => absurd hi (by simp; omega)⟩
  rw [C73_stringWidth f s _ hp, List.map_singleton, List.sum_singleton, pieceWidth_singleton, runeWidth_eq_plain]

/-- C104. The width of a text of one character, by `StringWidth` and by `StepString`. A character of a class that takes
no cell of its own has no width in `StepString`; in `StringWidth` it may have one, and the marks of `wideMarks` have two.
Other characters have the same width in both, except those of `differ`. -/
theorem C104_one_character (f : Flags) (hf : f.eastAsianWidth = false) (s : GoString) (r : Nat) (h : runes s = [r]) :
    let w := stringWidth f s
    let u := (stepString s (-1)).boundaries >>> ShiftWidth
    w = runeWidth f r ∧
    (TakesNone r → u = 0 ∧ (w = 2 ↔ InIntervals r wideMarks)) ∧
    (∀ e ∈ differ, e.1 ≤ r → r ≤ e.2.1 → ¬ TakesNone r ∧ w = e.2.2.1 ∧ u = e.2.2.2 ∧ w ≠ u) ∧
    (¬ TakesNone r → (∀ e ∈ differ, ¬ (e.1 ≤ r ∧ r ≤ e.2.1)) → w = u) := by
  dsimp only
  have hr : r ≤ 0x10FFFF := mem_runes_le s r (by rw [h]; exact List.mem_singleton_self r)
  have hc := differ_check r
  dsimp only at hc
  rw [← widthW_eq f hf r hr, ← widthU_eq, ← step_one s r h, stepAt_class, stepAt_marked _ wideMarks_sorted] at hc
  simp only [code_takesNone, ite_one_iff] at hc
  rw [width_one f s r h]
  have hd : stepAt 0 (rowSteps differRows) r = property differRows r := by
    rw [stepAt_rows _ differRows_sorted, property_eq_rowValue _ differRows_sorted]
  rw [hd] at hc
  have hrow : ∀ e ∈ differ, e.1 ≤ r → r ≤ e.2.1 → property differRows r = 1 + 8 * e.2.2.1 + e.2.2.2 := by
    intro e he h1 h2
    exact property_eq_of_mem differRows differRows_sorted (e.1, e.2.1, 1 + 8 * e.2.2.1 + e.2.2.2)
      (List.mem_map.mpr ⟨e, he, rfl⟩) r h1 h2
  have h8 : ∀ e ∈ differ, e.2.2.2 < 8 := by decide
  have hu := step_one s r h
  generalize (stepString s (-1)).boundaries >>> ShiftWidth = u at hc hu ⊢
  generalize runeWidth f r = w at hc ⊢
  refine ⟨rfl, fun hn => ?_, fun e he h1 h2 => ?_, fun hn hx => ?_⟩
  · rw [if_pos hn] at hc
    refine ⟨?_, hc.2⟩
    rw [hu, usRuneWidth_eq]
    exact if_pos hn
  · have hp := hrow e he h1 h2
    by_cases hn : TakesNone r
    · rw [if_pos hn, hp] at hc
      omega
    · rw [if_neg hn, hp] at hc
      have := h8 e he
      refine ⟨hn, ?_⟩
      omega
  · rw [if_neg hn] at hc
    have hp : property differRows r = 0 := by
      apply property_eq_zero_of_not_mem differRows differRows_sorted
      intro e he
      obtain ⟨x, hx', rfl⟩ := List.mem_map.mp he
      exact hx x hx'
    rw [hp] at hc
    omega

/-- C104. Of the 5984 characters that have no width in `StepString`, 5429 take cells in `StringWidth` when they stand
alone, twelve of them two. -/
theorem C104_marks (f : Flags) :
    (List.range 0x110000).countP (fun r => decide (TakesNone r)) = 5984 ∧
    (List.range 0x110000).countP (fun r : Nat => decide (TakesNone r ∧ runeWidth f r ≠ 0)) = 5429 ∧
    (wideMarks.map fun e => e.2 + 1 - e.1).sum = 12 := by
  refine ⟨marks_count.1, ?_, by decide⟩
  rw [← marks_count.2]
  apply List.countP_congr
  intro r hr
  rw [List.mem_range] at hr
  have hw : runeWidth f r = 0 ↔ ZeroWidth r := by
    rw [runeWidth_eq_plain, plainWidth_zero_iff, Int.toNat_natCast]
    exact ⟨fun h => h.resolve_left (by omega), .inr⟩
  simp only [ne_eq, hw]

/-- A Hebrew point, a skin tone, a flag letter, a two-em dash, a letter. -/
example : runes (lit "\u05b0") = [0x5B0] ∧ stringWidth ⟨false, true⟩ (lit "\u05b0") = 1 ∧
    runes (lit "🏽") = [0x1F3FD] ∧ stringWidth ⟨false, true⟩ (lit "🏽") = 2 ∧
    (stepString (lit "🏽") (-1)).boundaries >>> ShiftWidth = 0 ∧
    (stepString (lit "⸺") (-1)).boundaries >>> ShiftWidth = 3 ∧
    (stepString (lit "a") (-1)).boundaries >>> ShiftWidth = 1 := by decide +kernel

end GoTable
