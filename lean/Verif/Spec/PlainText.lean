import Verif.Spec.RuneWidth
import Verif.Spec.UAX29
/-!
# Specification: plain text

Text none of whose characters joins another, and the width of the common scripts.
-/

namespace GoTable.Spec

/-- A character that joins neither a character of this kind before it nor one after it. -/
def Alone (r : Nat) : Prop :=
  classOf r = .other ∨ classOf r = .extPict ∨ classOf r = .lv ∨ classOf r = .lvt

instance (r : Nat) : Decidable (Alone r) := by unfold Alone; infer_instance

/-- Printable ASCII. -/
def asciiText : List (Nat × Nat) := [(0x20, 0x7E)]

/-- Scripts written in full cells: CJK punctuation, Hiragana, Katakana, ideographs, Hangul syllables, compatibility
ideographs, full-width forms, the ideographs of planes 2 and 3. -/
def wideText : List (Nat × Nat) :=
  [(0x3000, 0x3029), (0x3041, 0x3096), (0x309B, 0x30FF), (0x3400, 0x4DBF), (0x4E00, 0x9FFF), (0xAC00, 0xD7A3),
    (0xF900, 0xFAFF), (0xFF01, 0xFF60), (0x20000, 0x2FFFD), (0x30000, 0x3FFFD)]

/-- Letters and lines whose width depends on the East Asian flag: basic Greek and Cyrillic letters, box drawing. -/
def eitherText : List (Nat × Nat) :=
  [(0x391, 0x3A1), (0x3A3, 0x3A9), (0x3B1, 0x3C1), (0x3C3, 0x3C9), (0x410, 0x44F), (0x2500, 0x254B), (0x2550, 0x2573)]

/-- Characters that take no cell: C0 and C1 controls, soft hyphen, combining diacritical marks, joiners. -/
def noText : List (Nat × Nat) := [(0x00, 0x1F), (0x7F, 0x9F), (0xAD, 0xAD), (0x300, 0x36F), (0x200B, 0x200F)]

end GoTable.Spec
