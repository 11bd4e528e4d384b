import Verif.Proofs.UAX29
import Verif.Spec.Monospace
/-! Code-point widths of package uniseg against the declarative lookups; whole-table checks. -/

namespace GoTable
open Spec

/-! ## Widths of code points -/

theorem property_eq_rowValue (d : List (Nat × Nat × Nat)) (hs : SortedIntervals (ranges d)) (r : Nat) :
    property d r = (rowValue d r).getD 0 := by
  unfold rowValue
  cases hf : d.find? (fun e => decide (e.1 ≤ r) && decide (r ≤ e.2.1)) with
  | some e =>
    have hm := List.mem_of_find?_eq_some hf
    have hp := List.find?_some hf
    simp only [Bool.and_eq_true, decide_eq_true_eq] at hp
    rw [property_eq_of_mem d hs e hm r hp.1 hp.2]; rfl
  | none =>
    rw [property_eq_zero_of_not_mem d hs]
    · rfl
    · intro e he
      have := List.find?_eq_none.mp hf e he
      simpa using this

theorem property_wide (r : Nat) :
    (property eastAsianWidth r = prW ∨ property eastAsianWidth r = prF) ↔ isWide r = true := by
  rw [property_eq_rowValue _ eastAsianWidth_sorted]
  unfold isWide
  cases rowValue eastAsianWidth r <;> simp [prW, prF]

theorem property_emoji (r : Nat) :
    property emojiPresentation r = prEmojiPresentation ↔ hasEmojiPresentation r = true := by
  rw [property_eq_rowValue _ emojiPresentation_sorted]
  unfold hasEmojiPresentation
  cases rowValue emojiPresentation r <;> simp [prEmojiPresentation]

/-- The width function in terms of the declarative lookups, in the order of the code. -/
theorem usRuneWidth_eq (r : Nat) :
    usRuneWidth r (gprop r) =
      (let c := classOf r
       if c = .control ∨ c = .cr ∨ c = .lf ∨ c = .extend ∨ c = .zwj then 0
       else if c = .ri then 2
       else if c = .extPict then (if hasEmojiPresentation r then 2 else 1)
       else if r = 0x2e3a then 3
       else if r = 0x2e3b then 4
       else if isWide r then 2
       else 1) := by
  unfold usRuneWidth
  simp only [property_wide, property_emoji]
  rw [gprop_eq_code]
  cases classOf r <;>
    simp [gcbCode, prControl, prCR, prLF, prExtend, prZWJ, prRegionalIndicator, prExtendedPictographic]

theorem rowValue_some {d : List (Nat × Nat × Nat)} {r v : Nat} (h : rowValue d r = some v) :
    ∃ e ∈ d, e.1 ≤ r ∧ r ≤ e.2.1 ∧ e.2.2 = v := by
  unfold rowValue at h
  cases hf : d.find? (fun e => decide (e.1 ≤ r) && decide (r ≤ e.2.1)) with
  | none => rw [hf] at h; simp at h
  | some e =>
    rw [hf] at h
    have hp := List.find?_some hf
    simp only [Bool.and_eq_true, decide_eq_true_eq] at hp
    exact ⟨e, List.mem_of_find?_eq_some hf, hp.1, hp.2, by simpa using h⟩

/-- The Extended_Pictographic rows of the shipped table, neighbours joined (checked below). -/
def pictRanges : List (Nat × Nat) := [
  (0xa9, 0xa9), (0xae, 0xae), (0x203c, 0x203c), (0x2049, 0x2049), (0x2122, 0x2122),
  (0x2139, 0x2139), (0x2194, 0x2199), (0x21a9, 0x21aa), (0x231a, 0x231b), (0x2328, 0x2328),
  (0x2388, 0x2388), (0x23cf, 0x23cf), (0x23e9, 0x23f3), (0x23f8, 0x23fa), (0x24c2, 0x24c2),
  (0x25aa, 0x25ab), (0x25b6, 0x25b6), (0x25c0, 0x25c0), (0x25fb, 0x25fe), (0x2600, 0x2605),
  (0x2607, 0x2612), (0x2614, 0x2685), (0x2690, 0x2705), (0x2708, 0x2712), (0x2714, 0x2714),
  (0x2716, 0x2716), (0x271d, 0x271d), (0x2721, 0x2721), (0x2728, 0x2728), (0x2733, 0x2734),
  (0x2744, 0x2744), (0x2747, 0x2747), (0x274c, 0x274c), (0x274e, 0x274e), (0x2753, 0x2755),
  (0x2757, 0x2757), (0x2763, 0x2767), (0x2795, 0x2797), (0x27a1, 0x27a1), (0x27b0, 0x27b0),
  (0x27bf, 0x27bf), (0x2934, 0x2935), (0x2b05, 0x2b07), (0x2b1b, 0x2b1c), (0x2b50, 0x2b50),
  (0x2b55, 0x2b55), (0x3030, 0x3030), (0x303d, 0x303d), (0x3297, 0x3297), (0x3299, 0x3299),
  (0x1f000, 0x1f0ff), (0x1f10d, 0x1f10f), (0x1f12f, 0x1f12f), (0x1f16c, 0x1f171),
  (0x1f17e, 0x1f17f), (0x1f18e, 0x1f18e), (0x1f191, 0x1f19a), (0x1f1ad, 0x1f1e5),
  (0x1f201, 0x1f20f), (0x1f21a, 0x1f21a), (0x1f22f, 0x1f22f), (0x1f232, 0x1f23a),
  (0x1f23c, 0x1f23f), (0x1f249, 0x1f3fa), (0x1f400, 0x1f53d), (0x1f546, 0x1f64f),
  (0x1f680, 0x1f6ff), (0x1f774, 0x1f77f), (0x1f7d5, 0x1f7ff), (0x1f80c, 0x1f80f),
  (0x1f848, 0x1f84f), (0x1f85a, 0x1f85f), (0x1f888, 0x1f88f), (0x1f8ae, 0x1f8ff),
  (0x1f90c, 0x1f93a), (0x1f93c, 0x1f945), (0x1f947, 0x1faff), (0x1fc00, 0x1fffd)]

/-- The wide and fullwidth rows of the shipped table, neighbours joined (checked below). -/
def wideRanges : List (Nat × Nat) := [
  (0x1100, 0x115f), (0x231a, 0x231b), (0x2329, 0x232a), (0x23e9, 0x23ec), (0x23f0, 0x23f0),
  (0x23f3, 0x23f3), (0x25fd, 0x25fe), (0x2614, 0x2615), (0x2648, 0x2653), (0x267f, 0x267f),
  (0x2693, 0x2693), (0x26a1, 0x26a1), (0x26aa, 0x26ab), (0x26bd, 0x26be), (0x26c4, 0x26c5),
  (0x26ce, 0x26ce), (0x26d4, 0x26d4), (0x26ea, 0x26ea), (0x26f2, 0x26f3), (0x26f5, 0x26f5),
  (0x26fa, 0x26fa), (0x26fd, 0x26fd), (0x2705, 0x2705), (0x270a, 0x270b), (0x2728, 0x2728),
  (0x274c, 0x274c), (0x274e, 0x274e), (0x2753, 0x2755), (0x2757, 0x2757), (0x2795, 0x2797),
  (0x27b0, 0x27b0), (0x27bf, 0x27bf), (0x2b1b, 0x2b1c), (0x2b50, 0x2b50), (0x2b55, 0x2b55),
  (0x2e80, 0x2e99), (0x2e9b, 0x2ef3), (0x2f00, 0x2fd5), (0x2ff0, 0x2ffb), (0x3000, 0x303e),
  (0x3041, 0x3096), (0x3099, 0x30ff), (0x3105, 0x312f), (0x3131, 0x318e), (0x3190, 0x31e3),
  (0x31f0, 0x321e), (0x3220, 0x3247), (0x3250, 0x4dbf), (0x4e00, 0xa48c), (0xa490, 0xa4c6),
  (0xa960, 0xa97c), (0xac00, 0xd7a3), (0xf900, 0xfaff), (0xfe10, 0xfe19), (0xfe30, 0xfe52),
  (0xfe54, 0xfe66), (0xfe68, 0xfe6b), (0xff01, 0xff60), (0xffe0, 0xffe6), (0x16fe0, 0x16fe4),
  (0x16ff0, 0x16ff1), (0x17000, 0x187f7), (0x18800, 0x18cd5), (0x18d00, 0x18d08),
  (0x1aff0, 0x1aff3), (0x1aff5, 0x1affb), (0x1affd, 0x1affe), (0x1b000, 0x1b122),
  (0x1b150, 0x1b152), (0x1b164, 0x1b167), (0x1b170, 0x1b2fb), (0x1f004, 0x1f004),
  (0x1f0cf, 0x1f0cf), (0x1f18e, 0x1f18e), (0x1f191, 0x1f19a), (0x1f200, 0x1f202),
  (0x1f210, 0x1f23b), (0x1f240, 0x1f248), (0x1f250, 0x1f251), (0x1f260, 0x1f265),
  (0x1f300, 0x1f320), (0x1f32d, 0x1f335), (0x1f337, 0x1f37c), (0x1f37e, 0x1f393),
  (0x1f3a0, 0x1f3ca), (0x1f3cf, 0x1f3d3), (0x1f3e0, 0x1f3f0), (0x1f3f4, 0x1f3f4),
  (0x1f3f8, 0x1f43e), (0x1f440, 0x1f440), (0x1f442, 0x1f4fc), (0x1f4ff, 0x1f53d),
  (0x1f54b, 0x1f54e), (0x1f550, 0x1f567), (0x1f57a, 0x1f57a), (0x1f595, 0x1f596),
  (0x1f5a4, 0x1f5a4), (0x1f5fb, 0x1f64f), (0x1f680, 0x1f6c5), (0x1f6cc, 0x1f6cc),
  (0x1f6d0, 0x1f6d2), (0x1f6d5, 0x1f6d7), (0x1f6dd, 0x1f6df), (0x1f6eb, 0x1f6ec),
  (0x1f6f4, 0x1f6fc), (0x1f7e0, 0x1f7eb), (0x1f7f0, 0x1f7f0), (0x1f90c, 0x1f93a),
  (0x1f93c, 0x1f945), (0x1f947, 0x1f9ff), (0x1fa70, 0x1fa74), (0x1fa78, 0x1fa7c),
  (0x1fa80, 0x1fa86), (0x1fa90, 0x1faac), (0x1fab0, 0x1faba), (0x1fac0, 0x1fac5),
  (0x1fad0, 0x1fad9), (0x1fae0, 0x1fae7), (0x1faf0, 0x1faf6), (0x20000, 0x2fffd),
  (0x30000, 0x3fffd)]

theorem pictRanges_complete : ∀ e ∈ graphemeCodePoints, e.2.2 = 15 →
    ∃ p ∈ pictRanges, p.1 ≤ e.1 ∧ e.2.1 ≤ p.2 := by
  have h : (graphemeCodePoints.all fun e => e.2.2 != 15 ||
      pictRanges.any fun p => decide (p.1 ≤ e.1) && decide (e.2.1 ≤ p.2)) = true := by
    decide +kernel
  intro e he h15
  have h1 := List.all_eq_true.mp h e he
  rw [h15] at h1
  obtain ⟨p, hp, h2⟩ := List.any_eq_true.mp (by simpa only [bne_self_eq_false, Bool.false_or] using h1)
  simp only [Bool.and_eq_true, decide_eq_true_eq] at h2
  exact ⟨p, hp, h2⟩

theorem wideRanges_complete : ∀ e ∈ eastAsianWidth, (e.2.2 == prW || e.2.2 == prF) = true →
    ∃ p ∈ wideRanges, p.1 ≤ e.1 ∧ e.2.1 ≤ p.2 := by
  have h : (eastAsianWidth.all fun e => !(e.2.2 == prW || e.2.2 == prF) ||
      wideRanges.any fun p => decide (p.1 ≤ e.1) && decide (e.2.1 ≤ p.2)) = true := by
    decide +kernel
  intro e he hw
  have h1 := List.all_eq_true.mp h e he
  rw [hw] at h1
  obtain ⟨p, hp, h2⟩ := List.any_eq_true.mp (by simpa only [Bool.not_true, Bool.false_or] using h1)
  simp only [Bool.and_eq_true, decide_eq_true_eq] at h2
  exact ⟨p, hp, h2⟩

/-- `r` is an exception or has emoji presentation. -/
def pictPointOK (r : Nat) : Bool :=
  docExceptions.contains r || emojiPresentation.any fun p => Nat.ble p.1 r && Nat.ble r p.2.1

/-- The `n` points from `r` on are fine (counting up so that the kernel meets literals). -/
def pictPointsOK : Nat → Nat → Bool
  | 0, _ => true
  | n + 1, r => pictPointOK r && pictPointsOK n (r + 1)

theorem pictPointsOK_sound (n a r : Nat) (h : pictPointsOK n a = true) (h1 : a ≤ r) (h2 : r < a + n) :
    pictPointOK r = true := by
  induction n generalizing a with
  | zero => omega
  | succ n ih =>
    rw [pictPointsOK, Bool.and_eq_true] at h
    by_cases ha : a = r
    · rw [← ha]; exact h.1
    · exact ih (a + 1) h.2 (by omega) (by omega)

/-- All points common to a pictographic range and a wide range are fine. -/
def pictWideCheck : Bool :=
  wideRanges.all fun w => pictRanges.all fun e =>
    pictPointsOK (min e.2 w.2 + 1 - max e.1 w.1) (max e.1 w.1)

theorem pictWideCheck_true : pictWideCheck = true := by decide +kernel

theorem emojiPresentation_values : ∀ e ∈ emojiPresentation, e.2.2 = prEmojiPresentation := by
  decide +kernel

theorem extPict_wide (r : Nat) (hc : classOf r = .extPict) (hw : isWide r = true)
    (he : hasEmojiPresentation r = false) : r ∈ docExceptions := by
  have h1 : ∃ e ∈ pictRanges, e.1 ≤ r ∧ r ≤ e.2 := by
    have hg := gprop_eq_code r
    rw [hc, gprop, property_eq_rowValue _ graphemeCodePoints_sorted] at hg
    cases hv : rowValue graphemeCodePoints r with
    | none => rw [hv] at hg; simp [gcbCode] at hg
    | some v =>
      obtain ⟨e, he, h1, h2, h3⟩ := rowValue_some hv
      rw [hv] at hg
      simp [gcbCode] at hg
      obtain ⟨p, hp, h4, h5⟩ := pictRanges_complete e he (by omega)
      exact ⟨p, hp, by omega, by omega⟩
  have h2 : ∃ w ∈ wideRanges, w.1 ≤ r ∧ r ≤ w.2 := by
    unfold isWide at hw
    cases hv : rowValue eastAsianWidth r with
    | none => rw [hv] at hw; simp at hw
    | some v =>
      obtain ⟨e, he, h1, h2, h3⟩ := rowValue_some hv
      rw [hv] at hw
      obtain ⟨p, hp, h4, h5⟩ := wideRanges_complete e he (by rw [h3]; simpa using hw)
      exact ⟨p, hp, by omega, by omega⟩
  obtain ⟨e, hem, e1, e2⟩ := h1
  obtain ⟨w, hwm, w1, w2⟩ := h2
  have hchk := pictWideCheck_true
  unfold pictWideCheck at hchk
  have h3 := List.all_eq_true.mp hchk w hwm
  have h4 := pictPointsOK_sound _ _ r (List.all_eq_true.mp h3 e hem) (by omega) (by omega)
  rw [pictPointOK, Bool.or_eq_true] at h4
  rcases h4 with h4 | h4
  · simpa using h4
  · exfalso
    obtain ⟨p, hp, hpr⟩ := List.any_eq_true.mp h4
    simp only [Bool.and_eq_true, Nat.ble_eq] at hpr
    have := property_eq_of_mem _ emojiPresentation_sorted p hp r hpr.1 hpr.2
    rw [emojiPresentation_values p hp, property_emoji] at this
    rw [this] at he; simp at he

theorem usRuneWidth_doc (r : Nat) (h : r ∉ docExceptions) : usRuneWidth r (gprop r) = docWidth r := by
  rw [usRuneWidth_eq]
  unfold docWidth
  dsimp only
  have ha : classOf 0x2e3a = .other := by decide +kernel
  have hb : classOf 0x2e3b = .other := by decide +kernel
  by_cases h1 : r = 0x2e3a
  · subst h1; simp [ha]
  by_cases h2 : r = 0x2e3b
  · subst h2; simp [hb]
  simp only [h1, h2, if_false]
  by_cases hc : classOf r = .ri
  · simp [hc]
  by_cases hd : classOf r = .extPict
  · simp only [hd]
    cases hw : isWide r
    · simp
    · cases he : hasEmojiPresentation r
      · exact absurd (extPict_wide r hd hw he) h
      · simp
  · simp [hc, hd]

theorem docExceptions_width : ∀ r ∈ docExceptions, usRuneWidth r (gprop r) = 1 := by decide +kernel

theorem usRuneWidth_mono (r : Nat) : usRuneWidth r (gprop r) = monoWidth r := by
  unfold monoWidth
  split
  · rename_i h; exact docExceptions_width r h
  · rename_i h; exact usRuneWidth_doc r h

theorem classOf_code_iff (r : Nat) (c : GCB) (n : Nat) (hn : n ≠ 0) (hc : gcbCode c = n) :
    classOf r = c ↔ ∃ e ∈ graphemeCodePoints.filter (fun e => e.2.2 == n), e.1 ≤ r ∧ r ≤ e.2.1 := by
  have hg := gprop_eq_code r
  constructor
  · intro h
    rw [h, hc, gprop, property_eq_rowValue _ graphemeCodePoints_sorted] at hg
    cases hv : rowValue graphemeCodePoints r with
    | none => rw [hv] at hg; simp at hg; omega
    | some v =>
      obtain ⟨e, he, h1, h2, h3⟩ := rowValue_some hv
      rw [hv] at hg
      simp at hg
      exact ⟨e, List.mem_filter.mpr ⟨he, by simp [h3, hg]⟩, h1, h2⟩
  · rintro ⟨e, he, h1, h2⟩
    obtain ⟨he, hv⟩ := List.mem_filter.mp he
    have := property_eq_of_mem _ graphemeCodePoints_sorted e he r h1 h2
    rw [gprop, this] at hg
    simp at hv
    rw [hv, ← hc] at hg
    revert hg
    cases classOf r <;> cases c <;> simp [gcbCode]

theorem l_rows : (graphemeCodePoints.filter fun e => e.2.2 == 9)
    = [(0x1100, 0x115F, 9), (0xA960, 0xA97C, 9)] := by decide +kernel

theorem l_mono (r : Nat) (h : classOf r = .l) : monoWidth r = 2 := by
  obtain ⟨e, he, h1, h2⟩ := (classOf_code_iff r .l 9 (by omega) rfl).mp h
  rw [l_rows] at he
  have hw : isWide r = true := by
    rw [← property_wide]
    left
    simp only [List.mem_cons, List.not_mem_nil, or_false] at he
    rcases he with rfl | rfl <;> dsimp only at h1 h2
    · exact property_eq_of_mem _ eastAsianWidth_sorted (0x1100, 0x115F, prW) (by decide +kernel) r h1 h2
    · exact property_eq_of_mem _ eastAsianWidth_sorted (0xA960, 0xA97C, prW) (by decide +kernel) r h1 h2
  have hne : r ≠ 0x2e3a ∧ r ≠ 0x2e3b := by
    simp only [List.mem_cons, List.not_mem_nil, or_false] at he
    rcases he with rfl | rfl <;> dsimp only at h1 h2 <;> omega
  rw [← usRuneWidth_mono, usRuneWidth_eq]
  simp [h, hw, hne]

theorem ri_mono (r : Nat) (h : classOf r = .ri) : monoWidth r = 2 := by
  rw [← usRuneWidth_mono, usRuneWidth_eq]; simp [h]

end GoTable
