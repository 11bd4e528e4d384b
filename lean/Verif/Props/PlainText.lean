import Verif.Proofs.PlainText
import Verif.Props.Align
import Verif.Props.Escape
/-!
# Properties: plain text

C100: text none of whose characters joins another is measured character by character.
-/

namespace GoTable
open Spec

/-- C100. The width is the sum of the widths of the characters. -/
theorem C100_sum (f : Flags) (s : GoString) (h : ∀ r ∈ runes s, Alone r) :
    stringWidth f s = ((runes s).map fun r : Nat => runeWidth f r).sum := by
  rw [C73_stringWidth f s _ (pieces_alone h), List.map_map]
  congr 1
  apply List.map_congr_left
  intro r _
  rw [Function.comp, pieceWidth_singleton, runeWidth_eq_plain]

/-- Mixed text, a full stop of the other width and an emoji included. -/
example : (∀ r ∈ runes (lit "naïve 漢字。한글 Ω😀"), Alone r) ∧
    stringWidth ⟨true, false⟩ (lit "naïve 漢字。한글 Ω😀") = 21 := by decide +kernel

/-- The condition is needed: joined characters count once. -/
example : stringWidth ⟨false, true⟩ (lit "👩‍🚀") = 2 ∧
    ((runes (lit "👩‍🚀")).map fun r : Nat => runeWidth ⟨false, true⟩ r).sum = 4 := by decide +kernel

theorem sum_cells (f : Flags) (rs : List Nat)
    (h : ∀ r ∈ rs, InIntervals r asciiText ∨ InIntervals r wideText ∨ InIntervals r eitherText) :
    (rs.map fun r : Nat => runeWidth f r).sum =
      (rs.countP fun r => decide (InIntervals r asciiText)) + 2 * (rs.countP fun r => decide (InIntervals r wideText)) +
        (if f.eastAsianWidth then 2 else 1) * (rs.countP fun r => decide (InIntervals r eitherText)) := by
  have hd : ∀ x ∈ asciiText, ∀ y ∈ wideText ++ eitherText, x.2 < y.1 ∨ y.2 < x.1 := by decide +kernel
  have hd' : ∀ x ∈ wideText, ∀ y ∈ eitherText, x.2 < y.1 ∨ y.2 < x.1 := by decide +kernel
  induction rs with
  | nil => simp
  | cons r rs ih =>
    rw [List.map_cons, List.sum_cons, ih fun x hx => h x (List.mem_cons_of_mem _ hx), runeWidth_eq_plain]
    rw [List.countP_cons, List.countP_cons, List.countP_cons]
    rcases h r List.mem_cons_self with ha | ha | ha
    · have h1 : ¬ InIntervals r wideText := by
        obtain ⟨x, hx, h1, h2⟩ := ha
        rintro ⟨y, hy, h3, h4⟩
        have := hd x hx y (by simp [hy]); omega
      have h2 : ¬ InIntervals r eitherText := by
        obtain ⟨x, hx, h1, h2⟩ := ha
        rintro ⟨y, hy, h3, h4⟩
        have := hd x hx y (by simp [hy]); omega
      have h3 : plainWidth f r = 1 := by
        obtain ⟨x, hx, h4, h5⟩ := ha
        simp [asciiText] at hx
        subst hx
        rw [← runeWidth_eq_plain, runeWidth_ascii f r h4 h5]
      simp only [ha, h1, h2, h3]
      simp; omega
    · have h1 : ¬ InIntervals r asciiText := by
        obtain ⟨x, hx, h1, h2⟩ := ha
        rintro ⟨y, hy, h3, h4⟩
        have := hd y hy x (by simp [hx]); omega
      have h2 : ¬ InIntervals r eitherText := by
        obtain ⟨x, hx, h1, h2⟩ := ha
        rintro ⟨y, hy, h3, h4⟩
        have := hd' x hx y hy; omega
      simp only [ha, h1, h2, wide_width f ha]
      simp; omega
    · have h1 : ¬ InIntervals r asciiText := by
        obtain ⟨x, hx, h1, h2⟩ := ha
        rintro ⟨y, hy, h3, h4⟩
        have := hd y hy x (by simp [hx]); omega
      have h2 : ¬ InIntervals r wideText := by
        obtain ⟨x, hx, h1, h2⟩ := ha
        rintro ⟨y, hy, h3, h4⟩
        have := hd' y hy x hx; omega
      simp only [ha, h1, h2, either_width f ha]
      split <;> simp <;> omega

/-- C100. One cell for each ASCII character, two for each ideograph, kana or Hangul syllable, and for each Greek or
Cyrillic letter or piece of a box two or one. -/
theorem C100_cells (f : Flags) (s : GoString)
    (h : ∀ r ∈ runes s, InIntervals r asciiText ∨ InIntervals r wideText ∨ InIntervals r eitherText) :
    stringWidth f s = ((runes s).countP fun r => decide (InIntervals r asciiText)) +
      2 * ((runes s).countP fun r => decide (InIntervals r wideText)) +
      (if f.eastAsianWidth then 2 else 1) * ((runes s).countP fun r => decide (InIntervals r eitherText)) ∧
    visualWidth f s = UInt16.ofNat (stringWidth f s) := by
  refine ⟨?_, C13_no_introducer f s fun r hr => ?_⟩
  · rw [C100_sum f s fun r hr => alone_of_text (h r hr), sum_cells f _ h]
  · have hd : ∀ x ∈ asciiText ++ wideText ++ eitherText, ¬ (x.1 ≤ 0x1B ∧ 0x1B ≤ x.2) ∧ ¬ (x.1 ≤ 0x9B ∧ 0x9B ≤ x.2) := by
      decide +kernel
    have h' : ∃ x ∈ asciiText ++ wideText ++ eitherText, x.1 ≤ r ∧ r ≤ x.2 := by
      rcases h r hr with ⟨x, hx, h⟩ | ⟨x, hx, h⟩ | ⟨x, hx, h⟩ <;> exact ⟨x, by simp [hx], h⟩
    obtain ⟨x, hx, h1⟩ := h'
    exact ⟨fun e => (hd x hx).1 (e ▸ h1), fun e => (hd x hx).2 (e ▸ h1)⟩

/-- Twelve, ten and six characters. -/
example : (∀ r ∈ runes (lit "price list 漢字かなカナ한글｜　 Ωмега│"),
      InIntervals r asciiText ∨ InIntervals r wideText ∨ InIntervals r eitherText) ∧
    visualWidth ⟨false, true⟩ (lit "price list 漢字かなカナ한글｜　 Ωмега│") = 38 ∧
    visualWidth ⟨true, true⟩ (lit "price list 漢字かなカナ한글｜　 Ωмега│") = 44 := by decide +kernel

/-- C100. Controls, the soft hyphen, combining marks, zero-width spaces and joiners take no cell. -/
theorem C100_no_cell (f : Flags) (r : Nat) (h : InIntervals r noText) : runeWidth f r = 0 := by
  rw [runeWidth_eq_plain]; exact no_width f h

/-- A combining acute accent and a zero-width space. -/
example : InIntervals 0x301 noText ∧ InIntervals 0x200B noText := by decide +kernel

/-- C100. Aligned, such text is as wide as asked for, or as it was if that is more. -/
theorem C100_aligned (f : Flags) (s : GoString) (w : UInt16) (h : ∀ r ∈ runes s, Alone r) :
    visualWidth f (alignmentLeft f s w) = max w (visualWidth f s) ∧
    visualWidth f (alignmentRight f s w) = max w (visualWidth f s) ∧
    visualWidth f (alignmentCenter f s w) = max w (visualWidth f s) := by
  have hp : ¬ EndsInPrepend s := by
    intro e
    unfold EndsInPrepend at e
    obtain ⟨r, hr, e⟩ := List.mem_map.mp (List.mem_of_getLast? e)
    have := h r hr
    unfold Alone at this
    rw [e] at this
    simp at this
  have hx : ¬ StartsExtending s := by
    rintro ⟨r, hr, e⟩
    have := h r (List.mem_of_head? hr)
    unfold Alone at this
    rcases e with e | e | e <;> rw [e] at this <;> simp at this
  have hcase : w ≤ visualWidth f s ∨ visualWidth f s < w := by
    rw [UInt16.le_iff_toNat_le, UInt16.lt_iff_toNat_lt]; omega
  rcases hcase with hc | hc
  · have hm : max w (visualWidth f s) = visualWidth f s := by
      rw [show max w (visualWidth f s) = if w ≤ visualWidth f s then visualWidth f s else w from rfl, if_pos hc]
    rw [hm, (C16_alignmentLeft_exact f s w).2.1 hc, (C17_alignmentRight_exact f s w).2.1 hc,
      (C18_alignmentCenter_exact f s w).2.1 hc]
    exact ⟨rfl, rfl, rfl⟩
  · have hm : max w (visualWidth f s) = w := by
      rw [show max w (visualWidth f s) = if w ≤ visualWidth f s then visualWidth f s else w from rfl, if_neg]
      rw [UInt16.lt_iff_toNat_lt] at hc
      rw [UInt16.le_iff_toNat_le]
      omega
    rw [hm]
    exact ⟨(C16_alignmentLeft_exact f s w).2.2 hc hp, (C17_alignmentRight_exact f s w).2.2 hc hx,
      (C18_alignmentCenter_exact f s w).2.2 hc hx hp⟩

/-- A short and a long text. -/
example : (∀ r ∈ runes (lit "漢字"), Alone r) ∧ visualWidth ⟨false, true⟩ (alignmentCenter ⟨false, true⟩ (lit "漢字") 7) = 7 ∧
    visualWidth ⟨false, true⟩ (alignmentCenter ⟨false, true⟩ (lit "漢字") 3) = 4 := by decide +kernel

end GoTable
