import Verif.Model.RuneWidth
import Verif.Spec.Tables
/-!
# Specification: the width of a code point

The definition the hand-optimised switch of `RuneWidth` is meant to compute, by interval membership.
-/

namespace GoTable.Spec

/-- Non-printing or combining: takes no cell. -/
def ZeroWidth (r : Nat) : Prop := InIntervals r nonprint ∨ InIntervals r combining

instance (r : Nat) : Decidable (ZeroWidth r) := by unfold ZeroWidth; infer_instance

/-- Width of any `int32` value. -/
def plainWidth (f : Flags) (r : Int) : Nat :=
  if r < 0 ∨ 0x10FFFF < r then 0
  else if ZeroWidth r.toNat then 0
  else if f.eastAsianWidth = false then
    if InIntervals r.toNat doublewidth then 2 else 1
  else if InIntervals r.toNat narrow then 1
  else if InIntervals r.toNat ambiguous ∨ InIntervals r.toNat doublewidth then 2
  else if f.strictEmojiNeutral = false ∧ InIntervals r.toNat emoji then 2
  else 1

end GoTable.Spec
