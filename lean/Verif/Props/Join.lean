import Verif.Proofs.Join
/-!
# Properties of joined texts: C54, C55
-/

namespace GoTable
open Spec

/-! ## C54 -/

/-- C54. Widths add up across a control byte, whatever is on its two sides (a CR that belongs to the LF
after it excepted). -/
theorem C54_stringWidth_across (f : Flags) (a b : GoString) (c : UInt8) (hc : c.toNat < 0x20 ∨ c.toNat = 0x7F)
    (hb : c = 0x0D → b.head? ≠ some 0x0A) :
    stringWidth f (a ++ c :: b) = stringWidth f a + stringWidth f b :=
  stringWidth_across f a b c hc hb

/-- C54, for the visual width: only ESC may go with what follows it. -/
theorem C54_visualWidth_across (f : Flags) (a b : GoString) (c : UInt8) (hc : c.toNat < 0x20 ∨ c.toNat = 0x7F)
    (hb : c = 0x0D → b.head? ≠ some 0x0A) (he : c ≠ 0x1B) :
    visualWidth f (a ++ c :: b) = visualWidth f a + visualWidth f b := by
  rw [visualWidth_eq, visualWidth_eq, visualWidth_eq, stringWidth_across f a b c hc hb, cnt_across a b c hc he,
    ← UInt16.toNat_inj, UInt16.toNat_add]
  have h1 := u16_toNat ((stringWidth f a + stringWidth f b : Nat) - (cnt a + cnt b : Nat) : Int)
  have h2 := u16_toNat ((stringWidth f a : Int) - cnt a)
  have h3 := u16_toNat ((stringWidth f b : Int) - cnt b)
  omega

/-- C54. So a text of several lines is as wide as its lines together, whether they end in LF or CR LF. -/
theorem C54_lines (f : Flags) (l : GoString) (ls : List GoString) :
    visualWidth f (List.intercalate [0x0A] (l :: ls)) = ((l :: ls).map (visualWidth f)).sum ∧
    visualWidth f (List.intercalate [0x0D, 0x0A] (l :: ls)) = ((l :: ls).map (visualWidth f)).sum := by
  have hempty : visualWidth f [] = 0 := by
    rw [← UInt16.toNat_inj, visualWidth_eq, stringWidth_eq_sw]; simp [runes]; rfl
  induction ls generalizing l with
  | nil => simp [List.intercalate]
  | cons m ls ih =>
    have e : ∀ sep : GoString, List.intercalate sep (l :: m :: ls) = l ++ (sep ++ List.intercalate sep (m :: ls)) := by
      intro sep; simp [List.intercalate]
    obtain ⟨h1, h2⟩ := ih m
    constructor
    · rw [e, List.singleton_append, C54_visualWidth_across f _ _ _ (by decide) (by simp) (by decide), h1]
      rfl
    · rw [e, show [0x0D, 0x0A] ++ List.intercalate [0x0D, 0x0A] (m :: ls) =
          [0x0D] ++ 0x0A :: List.intercalate [0x0D, 0x0A] (m :: ls) by rfl, ← List.append_assoc,
        C54_visualWidth_across f _ _ 0x0A (by decide) (by simp) (by decide), h2,
        C54_visualWidth_across f l [] 0x0D (by decide) (by simp) (by decide), hempty]
      simp

/-- A tab between characters that would join: two halves of a flag. -/
example : stringWidth ⟨false, true⟩ (lit "🇩" ++ 0x09 :: lit "🇪") = 2 ∧
    stringWidth ⟨false, true⟩ (lit "🇩" ++ lit "🇪") = 1 ∧
    visualWidth ⟨false, true⟩ (lit "a\nbc\r\n\x1b[1mdef") = 6 := by decide +kernel

/-- ESC has to be excluded: it makes the digits after it invisible. -/
theorem C54_not_across_esc :
    visualWidth ⟨false, true⟩ (lit "a" ++ 0x1B :: lit "[0mb") = 2 ∧
    visualWidth ⟨false, true⟩ (lit "a") + visualWidth ⟨false, true⟩ (lit "[0mb") = 5 := by decide +kernel

/-! ## C55 -/

/-- C55. Appending never makes a text narrower. -/
theorem C55_append_not_narrower (f : Flags) (a b : GoString) (hb : ValidUTF8 b) :
    stringWidth f a ≤ stringWidth f (a ++ b) :=
  stringWidth_prefix_le f a b (startsClean_valid hb)

/-- C55. Appending characters of width 0 (combining marks, joiners, controls) leaves the width as it is. -/
theorem C55_append_zero_width (f : Flags) (a b : GoString) (hb : ValidUTF8 b)
    (hz : ∀ r ∈ runes b, runeWidth f r = 0) : stringWidth f (a ++ b) = stringWidth f a :=
  stringWidth_append_zero f a b (startsClean_valid hb) hz

/-- An accent, a joiner and a newline after a letter; one more letter after a wide one. -/
example : ValidUTF8 (lit "́‍\n") ∧ (∀ r ∈ runes (lit "́‍\n"), runeWidth ⟨false, true⟩ r = 0) ∧
    stringWidth ⟨false, true⟩ (lit "e" ++ lit "́‍\n") = 1 ∧
    stringWidth ⟨false, true⟩ (lit "中") = 2 ∧ stringWidth ⟨false, true⟩ (lit "中" ++ lit "a") = 3 :=
  ⟨⟨[0x301, 0x200D, 0x0A], by simp [Scalar], by decide +kernel⟩, by decide +kernel⟩

/-- The visual width does shrink, when the appended byte completes an escape sequence. -/
theorem C55_visualWidth_shrinks :
    visualWidth ⟨false, true⟩ (lit "\x1b[") = 1 ∧ visualWidth ⟨false, true⟩ (lit "\x1b[" ++ lit "m") = 0 := by
  decide +kernel

/-- A text cut inside a character is measured wider than the whole. -/
theorem C55_cut_inside_character :
    stringWidth ⟨false, true⟩ [0xE2, 0x80] = 2 ∧ stringWidth ⟨false, true⟩ ([0xE2, 0x80] ++ [0x8B]) = 0 := by
  decide +kernel

/-- And the subadditivity of C48 does fail for texts cut inside a character. -/
theorem C48_fails_inside_character :
    stringWidth ⟨false, true⟩ (lit "؀" ++ [0xC2]) = 1 ∧ stringWidth ⟨false, true⟩ ([0x85] ++ lit "🏻") = 1 ∧
    stringWidth ⟨false, true⟩ ((lit "؀" ++ [0xC2]) ++ ([0x85] ++ lit "🏻")) = 3 := by
  decide +kernel

end GoTable
