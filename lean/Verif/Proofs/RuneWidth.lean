import Verif.Proofs.Tables
import Verif.Spec.RuneWidth
import Mathlib.Tactic.Tauto
/-! RuneWidth against its definition; the lookup table. -/

namespace GoTable
open Spec

theorem inTable_nonprint (r : Nat) : inTable r nonprint = true ↔ InIntervals r nonprint :=
  inTable_correct _ nonprint_sorted r
theorem inTable_combining (r : Nat) : inTable r combining = true ↔ InIntervals r combining :=
  inTable_correct _ combining_sorted r
theorem inTable_doublewidth (r : Nat) : inTable r doublewidth = true ↔ InIntervals r doublewidth :=
  inTable_correct _ doublewidth_sorted r
theorem inTable_ambiguous (r : Nat) : inTable r ambiguous = true ↔ InIntervals r ambiguous :=
  inTable_correct _ ambiguous_sorted r
theorem inTable_narrow (r : Nat) : inTable r narrow = true ↔ InIntervals r narrow :=
  inTable_correct _ narrow_sorted r
theorem inTable_emoji (r : Nat) : inTable r emoji = true ↔ InIntervals r emoji :=
  inTable_correct _ emoji_sorted r

theorem inTables_two (r : Nat) (a b : IntervalTable) :
    inTables r [a, b] = true ↔ (inTable r a = true ∨ inTable r b = true) := by
  simp only [inTables]
  by_cases h1 : inTable r a = true
  · simp [h1]
  · by_cases h2 : inTable r b = true <;> simp [h1, h2]

theorem inTables_three (r : Nat) (a b c : IntervalTable) :
    inTables r [a, b, c] = true ↔ (inTable r a = true ∨ inTable r b = true ∨ inTable r c = true) := by
  simp only [inTables]
  by_cases h1 : inTable r a = true
  · simp [h1]
  · by_cases h2 : inTable r b = true
    · simp [h1, h2]
    · by_cases h3 : inTable r c = true <;> simp [h1, h2, h3]

theorem inTables_zero (r : Nat) : inTables r [nonprint, combining] = true ↔ ZeroWidth r := by
  rw [inTables_two, inTable_nonprint, inTable_combining]; rfl

/-- No interval of the list starts below `n`. -/
theorem not_in_of_lt {t : List (Nat × Nat)} {n r : Nat}
    (h : (t.all fun e => decide (n ≤ e.1)) = true) (hr : r < n) : ¬ InIntervals r t := by
  rintro ⟨e, he, h1, _⟩
  have := List.all_eq_true.mp h e he
  simp only [decide_eq_true_eq] at this
  omega

theorem nonprint_low : ∀ e ∈ nonprint, e.1 < 0x300 → e = (0, 0x1F) ∨ e = (0x7F, 0x9F) ∨ e = (0xAD, 0xAD) := by
  decide +kernel

theorem zeroWidth_low (r : Nat) (h : r < 0x300) :
    ZeroWidth r ↔ (r < 0x20 ∨ (0x7F ≤ r ∧ r ≤ 0x9F) ∨ r = 0xAD) := by
  constructor
  · rintro (⟨e, he, h1, h2⟩ | hc)
    · rcases nonprint_low e he (by omega) with rfl | rfl | rfl <;> dsimp only at h1 h2 <;> omega
    · exact absurd hc (not_in_of_lt (n := 0x300) (by decide +kernel) h)
  · intro hr
    left
    rcases hr with hr | hr | hr
    · exact ⟨(0, 0x1F), by decide +kernel, by dsimp only; omega, by dsimp only; omega⟩
    · exact ⟨(0x7F, 0x9F), by decide +kernel, by dsimp only; omega, by dsimp only; omega⟩
    · exact ⟨(0xAD, 0xAD), by decide +kernel, by dsimp only; omega, by dsimp only; omega⟩

theorem doublewidth_ge (r : Nat) (h : InIntervals r doublewidth) : 0x1100 ≤ r := by
  by_contra hc
  exact not_in_of_lt (n := 0x1100) (by decide +kernel) (by omega) h

theorem ambiguous_ge (r : Nat) (h : InIntervals r ambiguous) : 0xA1 ≤ r := by
  by_contra hc
  exact not_in_of_lt (n := 0xA1) (by decide +kernel) (by omega) h

theorem emoji_ge (r : Nat) (h : InIntervals r emoji) : 0xA9 ≤ r := by
  by_contra hc
  exact not_in_of_lt (n := 0xA9) (by decide +kernel) (by omega) h

theorem narrow_not_zero (r : Nat) (h : InIntervals r narrow) : ¬ ZeroWidth r := by
  rintro (h2 | h2)
  · exact disjointB_sound (a := narrow) (b := nonprint) (by decide +kernel) r h h2
  · exact disjointB_sound (a := narrow) (b := combining) (by decide +kernel) r h h2

theorem narrow_not_double (r : Nat) (h : InIntervals r narrow) : ¬ InIntervals r doublewidth :=
  fun h2 => disjointB_sound (a := narrow) (b := doublewidth) (by decide +kernel) r h h2

/-- The switch computes the plain definition. -/
theorem runeWidth_eq_plain (f : Flags) (r : Int) : runeWidth f r = plainWidth f r := by
  unfold runeWidth plainWidth
  by_cases hr : r < 0 ∨ 0x10FFFF < r
  · rw [if_pos hr, if_pos hr]
  rw [if_neg hr, if_neg hr]
  generalize r.toNat = n
  unfold runeWidthTables
  cases hf : f.eastAsianWidth
  · simp only [Bool.not_false, if_true]
    by_cases hlow : n < 0x300
    · have hz := zeroWidth_low n hlow
      by_cases h1 : n < 0x20
      · rw [if_pos h1, if_pos (hz.mpr (Or.inl h1))]
      rw [if_neg h1]
      by_cases h2 : (0x7F ≤ n ∧ n ≤ 0x9F) ∨ n = 0xAD
      · rw [if_pos h2, if_pos (hz.mpr (Or.inr h2))]
      rw [if_neg h2, if_pos hlow, if_neg (by rw [hz]; omega), if_neg]
      intro h; have := doublewidth_ge n h; omega
    · rw [if_neg (by omega), if_neg (by omega), if_neg hlow]
      by_cases hn : inTable n narrow = true
      · have hn' := (inTable_narrow n).mp hn
        rw [if_pos hn, if_neg (narrow_not_zero n hn'), if_neg (narrow_not_double n hn')]
      · rw [if_neg hn]
        simp only [inTables_zero, inTable_doublewidth]
  · simp only [Bool.not_true, Bool.false_eq_true, if_false]
    simp only [inTables_zero, inTable_narrow]
    split
    · rfl
    split
    · rfl
    rename_i hnn
    simp only [inTables_two, inTable_ambiguous, inTable_doublewidth]
    split
    · simp
    rename_i hna
    simp only [Bool.and_eq_true, inTables_three, inTable_ambiguous, inTable_emoji, inTable_narrow]
    have hna' : ¬ InIntervals n ambiguous := fun h => hna (Or.inl h)
    cases f.strictEmojiNeutral <;> simp [hna', hnn]

theorem plainWidth_le (f : Flags) (r : Int) : plainWidth f r ≤ 2 := by
  unfold plainWidth; repeat' split
  all_goals omega

theorem runeWidth_le (f : Flags) (r : Int) : runeWidth f r ≤ 2 := by
  rw [runeWidth_eq_plain]; exact plainWidth_le f r

/-- Zero width does not depend on the flags. -/
theorem plainWidth_zero_iff (f : Flags) (r : Int) :
    plainWidth f r = 0 ↔ (r < 0 ∨ 0x10FFFF < r) ∨ ZeroWidth r.toNat := by
  unfold plainWidth
  by_cases h1 : r < 0 ∨ 0x10FFFF < r
  · simp [h1]
  · by_cases h2 : ZeroWidth r.toNat
    · simp [h2]
    · rw [if_neg h1, if_neg h2]
      simp only [h1, h2, or_self, iff_false]
      repeat' split
      all_goals simp

theorem runeWidth_zero_iff (f g : Flags) (r : Int) : runeWidth f r = 0 ↔ runeWidth g r = 0 := by
  rw [runeWidth_eq_plain, runeWidth_eq_plain, plainWidth_zero_iff, plainWidth_zero_iff]

/-- The flags only widen. -/
theorem plainWidth_mono (f g : Flags) (r : Int)
    (h : f.eastAsianWidth = false ∨ (g.eastAsianWidth = true ∧
      (f.strictEmojiNeutral = true ∨ g.strictEmojiNeutral = false))) :
    plainWidth f r ≤ plainWidth g r := by
  unfold plainWidth
  by_cases h1 : r < 0 ∨ 0x10FFFF < r
  · simp [h1]
  rw [if_neg h1, if_neg h1]
  generalize r.toNat = n
  by_cases h2 : ZeroWidth n
  · simp [h2]
  rw [if_neg h2, if_neg h2]
  have hnd := narrow_not_double n
  rcases h with h | ⟨h3, h4⟩
  · rw [if_pos h]
    repeat' split
    all_goals first | omega | (exfalso; tauto)
  · rw [if_neg (by simp [h3] : ¬ g.eastAsianWidth = false)]
    by_cases hf : f.eastAsianWidth = false
    · rw [if_pos hf]
      repeat' split
      all_goals first | omega | (exfalso; tauto)
    · rw [if_neg hf]
      by_cases hn : InIntervals n narrow
      · simp [hn]
      · rw [if_neg hn, if_neg hn]
        by_cases ha : InIntervals n ambiguous ∨ InIntervals n doublewidth
        · simp [ha]
        · rw [if_neg ha, if_neg ha]
          by_cases he : InIntervals n emoji
          · rcases h4 with h4 | h4
            · simp [h4]; split <;> omega
            · simp [h4, he]; split <;> omega
          · simp [he]

theorem runeWidth_mono (f g : Flags) (r : Int)
    (h : f.eastAsianWidth = false ∨ (g.eastAsianWidth = true ∧
      (f.strictEmojiNeutral = true ∨ g.strictEmojiNeutral = false))) :
    runeWidth f r ≤ runeWidth g r := by
  rw [runeWidth_eq_plain, runeWidth_eq_plain]; exact plainWidth_mono f g r h

/-- Width against encoded size. -/
theorem runeWidth_two (f : Flags) (n : Nat) (h : runeWidth f n = 2) :
    0xA1 ≤ n ∧ (f.eastAsianWidth = false → 0x1100 ≤ n ∧ InIntervals n doublewidth) := by
  rw [runeWidth_eq_plain] at h
  unfold plainWidth at h
  rw [Int.toNat_natCast] at h
  by_cases h1 : (n : Int) < 0 ∨ 0x10FFFF < (n : Int)
  · rw [if_pos h1] at h; omega
  rw [if_neg h1] at h
  by_cases h2 : ZeroWidth n
  · rw [if_pos h2] at h; omega
  rw [if_neg h2] at h
  by_cases h3 : f.eastAsianWidth = false
  · rw [if_pos h3] at h
    by_cases h4 : InIntervals n doublewidth
    · have := doublewidth_ge n h4
      exact ⟨by omega, fun _ => ⟨this, h4⟩⟩
    · rw [if_neg h4] at h; omega
  · rw [if_neg h3] at h
    refine ⟨?_, fun h => absurd h h3⟩
    by_cases h4 : InIntervals n narrow
    · rw [if_pos h4] at h; omega
    rw [if_neg h4] at h
    by_cases h5 : InIntervals n ambiguous ∨ InIntervals n doublewidth
    · rcases h5 with h5 | h5
      · exact ambiguous_ge n h5
      · have := doublewidth_ge n h5; omega
    rw [if_neg h5] at h
    by_cases h6 : f.strictEmojiNeutral = false ∧ InIntervals n emoji
    · have := emoji_ge n h6.2; omega
    · rw [if_neg h6] at h; omega

/-- Printable ASCII has width 1 in every setting. -/
theorem runeWidth_ascii (f : Flags) (n : Nat) (h1 : 0x20 ≤ n) (h2 : n ≤ 0x7E) : runeWidth f n = 1 := by
  have hle := runeWidth_le f n
  have hne : runeWidth f n ≠ 0 := by
    rw [runeWidth_eq_plain, Ne, plainWidth_zero_iff, Int.toNat_natCast, zeroWidth_low n (by omega)]
    omega
  have h2' : runeWidth f n ≠ 2 := by
    intro h; have := (runeWidth_two f n h).1; omega
  omega

/-- Control characters have width 0 in every setting. -/
theorem runeWidth_control (f : Flags) (n : Nat) (h : n < 0x20 ∨ (0x7F ≤ n ∧ n ≤ 0x9F)) :
    runeWidth f n = 0 := by
  rw [runeWidth_eq_plain, plainWidth_zero_iff, Int.toNat_natCast, zeroWidth_low n (by omega)]
  omega

/-! ## Lookup table -/

theorem lut_decode (f : Flags) (r : Nat) :
    ((lutByte f (r >>> 1)) >>> (UInt8.ofNat (r &&& 1) * 4)).toNat &&& 3 = runeWidth f r := by
  have hr : r >>> 1 = r / 2 := by simp [Nat.shiftRight_eq_div_pow]
  have ha : r &&& 1 = r % 2 := by simp [Nat.and_one_is_mod]
  rw [hr, ha]
  unfold lutByte
  dsimp only
  have h0 := runeWidth_le f (r / 2 * 2 : Nat)
  have h1 := runeWidth_le f (r / 2 * 2 + 1 : Nat)
  have hd : ∀ x0 ∈ [0, 1, 2], ∀ x1 ∈ [0, 1, 2],
      ((UInt8.ofNat x0 ||| (UInt8.ofNat x1 <<< 4)) >>> (UInt8.ofNat 0 * 4)).toNat &&& 3 = x0 ∧
      ((UInt8.ofNat x0 ||| (UInt8.ofNat x1 <<< 4)) >>> (UInt8.ofNat 1 * 4)).toNat &&& 3 = x1 := by
    decide +kernel
  have hm : ∀ x : Nat, x ≤ 2 → x ∈ [0, 1, 2] := by
    intro x hx; simp; omega
  have := hd _ (hm _ h0) _ (hm _ h1)
  rcases Nat.mod_two_eq_zero_or_one r with h | h
  · rw [h, this.1]; congr 2; omega
  · rw [h, this.2]; congr 2; omega

/-- The table of a condition was built for flags `f`. -/
def LutFor (c : Condition) (f : Flags) : Prop :=
  c.combinedLut = (List.range (0x110000 / 2)).map (lutByte f)

theorem lutFor_runeWidth (c : Condition) (f : Flags) (h : LutFor c f) (r : Int) :
    c.runeWidth r = some (runeWidth f r) := by
  unfold Condition.runeWidth
  by_cases h1 : r < 0 ∨ 0x10FFFF < r
  · rw [if_pos h1, runeWidth, if_pos h1]
  rw [if_neg h1]
  obtain ⟨n, rfl⟩ : ∃ n : Nat, r = n := ⟨r.toNat, by omega⟩
  rw [Int.toNat_natCast]
  have hlen : c.combinedLut.length = 0x110000 / 2 := by
    rw [h, List.length_map, List.length_range]
  have hi : n >>> 1 < 0x110000 / 2 := by
    rw [Nat.shiftRight_eq_div_pow]; omega
  rw [if_pos (by rw [hlen]; omega)]
  have hget : c.combinedLut[n >>> 1]? = some (lutByte f (n >>> 1)) := by
    rw [h, List.getElem?_map, List.getElem?_range hi]; rfl
  rw [hget]
  dsimp only
  rw [lut_decode]

theorem noLut_runeWidth (c : Condition) (h : c.combinedLut = []) (r : Int) :
    c.runeWidth r = some (runeWidth c.flags r) := by
  unfold Condition.runeWidth runeWidth
  rw [h]
  split
  · rfl
  · simp

theorem createLUT_lutFor (c : Condition) (h : c.combinedLut = [] ∨ ∃ f, LutFor c f) :
    LutFor c.createLUT c.flags := by
  unfold LutFor Condition.createLUT
  dsimp only
  rcases h with h | ⟨f, h⟩
  · rw [h]; simp
  · have hlen : c.combinedLut.length = 0x110000 / 2 := by
      rw [h, List.length_map, List.length_range]
    rw [hlen]; simp

@[simp] theorem createLUT_flags (c : Condition) : c.createLUT.flags = c.flags := rfl

end GoTable
