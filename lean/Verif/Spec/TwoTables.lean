import Verif.Spec.Monospace
import Verif.Spec.RuneWidth
/-!
# Specification: the two sets of tables

Package runewidth has tables of its own; package uniseg has others, of Unicode 14. Where they differ.
-/

namespace GoTable.Spec

/-- East Asian Width is Ambiguous. -/
def isAmbiguous (r : Nat) : Bool := rowValue eastAsianWidth r == some prA

/-- Wide characters of Unicode 14 that the tables of package runewidth do not have: Katakana and Hiragana letters, emoji. -/
def newWide : List (Nat × Nat) :=
  [(0x1AFF0, 0x1AFF3), (0x1AFF5, 0x1AFFB), (0x1AFFD, 0x1AFFE), (0x1B11F, 0x1B122), (0x1F6DD, 0x1F6DF),
    (0x1F7F0, 0x1F7F0), (0x1F979, 0x1F979), (0x1F9CC, 0x1F9CC), (0x1FA7B, 0x1FA7C), (0x1FAA9, 0x1FAAC),
    (0x1FAB7, 0x1FABA), (0x1FAC3, 0x1FAC5), (0x1FAD7, 0x1FAD9), (0x1FAE0, 0x1FAE7), (0x1FAF0, 0x1FAF6)]

/-- The classes of the characters that take no cell of their own in package uniseg. -/
def TakesNone (r : Nat) : Prop :=
  classOf r = .control ∨ classOf r = .cr ∨ classOf r = .lf ∨ classOf r = .extend ∨ classOf r = .zwj

instance (r : Nat) : Decidable (TakesNone r) := by unfold TakesNone; infer_instance

/-- Code points without width in package runewidth, of other classes: a Syriac abbreviation mark, surrogates, two
noncharacters, two musical symbols. -/
def otherZero : List (Nat × Nat) :=
  [(0x70F, 0x70F), (0xD800, 0xDFFF), (0xFFFE, 0xFFFF), (0x1D166, 0x1D166), (0x1D16D, 0x1D16D)]

/-- Marks that package runewidth gives two cells: ideographic and Hangul tone marks, a Khitan filler, skin tones. -/
def wideMarks : List (Nat × Nat) := [(0x302A, 0x302F), (0x16FE4, 0x16FE4), (0x1F3FB, 0x1F3FF)]

/-- Where the two packages differ on other characters: first and last, the width in package runewidth, the width in
package uniseg. -/
def differ : List (Nat × Nat × Nat × Nat) :=
  [(0x70F, 0x70F, 0, 1),
    -- two-em dash, three-em dash
    (0x2E3A, 0x2E3A, 1, 3), (0x2E3B, 0x2E3B, 1, 4),
    -- wide pictographs without emoji presentation
    (0x3030, 0x3030, 2, 1), (0x303D, 0x303D, 2, 1), (0x3297, 0x3297, 2, 1), (0x3299, 0x3299, 2, 1),
    (0xD800, 0xDFFF, 0, 1), (0xFFFE, 0xFFFF, 0, 1),
    -- new in Unicode 14
    (0x1AFF0, 0x1AFF3, 1, 2), (0x1AFF5, 0x1AFFB, 1, 2), (0x1AFFD, 0x1AFFE, 1, 2), (0x1B11F, 0x1B122, 1, 2),
    (0x1D166, 0x1D166, 0, 1), (0x1D16D, 0x1D16D, 0, 1),
    -- regional indicators
    (0x1F1E6, 0x1F1FF, 1, 2),
    -- wide pictographs without emoji presentation
    (0x1F202, 0x1F202, 2, 1), (0x1F237, 0x1F237, 2, 1), (0x1F260, 0x1F265, 2, 1),
    -- new in Unicode 14
    (0x1F6DD, 0x1F6DF, 1, 2), (0x1F7F0, 0x1F7F0, 1, 2), (0x1F979, 0x1F979, 1, 2), (0x1F9CC, 0x1F9CC, 1, 2),
    (0x1FA7B, 0x1FA7C, 1, 2), (0x1FAA9, 0x1FAAC, 1, 2), (0x1FAB7, 0x1FABA, 1, 2), (0x1FAC3, 0x1FAC5, 1, 2),
    (0x1FAD7, 0x1FAD9, 1, 2), (0x1FAE0, 0x1FAE7, 1, 2), (0x1FAF0, 0x1FAF6, 1, 2)]

end GoTable.Spec
