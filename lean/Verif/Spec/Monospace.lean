import Verif.Spec.UAX29
import Verif.Model.Tables.EastAsian
import Verif.Model.Tables.Emoji
/-!
# Specification: monospace width of a code point and of a cluster, as documented for `StepString`

/repo/runewidth/uniseg/width.go:5-15 documents the width of a code point as a list of cases "evaluated
in this order". `docWidth` is that list read literally.
-/

namespace GoTable.Spec

/-- The value of the first row of a table that contains `r`. -/
def rowValue (t : List (Nat × Nat × Nat)) (r : Nat) : Option Nat :=
  (t.find? (fun e => decide (e.1 ≤ r) && decide (r ≤ e.2.1))).map (fun e => e.2.2)

/-- East Asian Width is Wide or Fullwidth. -/
def isWide (r : Nat) : Bool :=
  rowValue eastAsianWidth r == some prW || rowValue eastAsianWidth r == some prF

/-- Emoji_Presentation = Yes. -/
def hasEmojiPresentation (r : Nat) : Bool := rowValue emojiPresentation r == some prEmojiPresentation

/-- The documented width, its cases in the documented order. -/
def docWidth (r : Nat) : Nat :=
  let c := classOf r
  if c = .control ∨ c = .cr ∨ c = .lf ∨ c = .extend ∨ c = .zwj then 0
  else if r = 0x2e3a then 3
  else if r = 0x2e3b then 4
  else if isWide r then 2
  else if c = .ri then 2
  else if c = .extPict then (if hasEmojiPresentation r then 2 else 1)
  else 1

/-- The Extended_Pictographic code points that are wide but have no emoji presentation: here the
documented order and the order of the code give different answers. -/
def docExceptions : List Nat :=
  [0x3030, 0x303d, 0x3297, 0x3299, 0x1f202, 0x1f237, 0x1f260, 0x1f261, 0x1f262, 0x1f263, 0x1f264,
   0x1f265]

/-- Width of one code point: as documented, except that the pictographs of `docExceptions` have 1. -/
def monoWidth (r : Nat) : Nat := if r ∈ docExceptions then 1 else docWidth r

/-- Width of a cluster. A single code point has its own width. In a longer cluster: led by a pictograph,
2 unless it ends in the text selector U+FE0E, then 1; led by a regional indicator or a Hangul leading
consonant, 2; otherwise the widths add up, where an emoji selector U+FE0F makes everything up to it
count 2. -/
def clusterCells : List Nat → Nat
  | [] => 0
  | [r] => monoWidth r
  | r :: tail =>
    if classOf r = .extPict then (if tail.getLast? = some 0xFE0E then 1 else 2)
    else if classOf r = .ri ∨ classOf r = .l then 2
    else
      let after := (tail.reverse.takeWhile (· ≠ 0xFE0F)).reverse
      if 0xFE0F ∈ tail then 2 + (after.map monoWidth).sum
      else monoWidth r + (tail.map monoWidth).sum

end GoTable.Spec
