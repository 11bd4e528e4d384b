import Verif.Model.Grapheme
import Verif.Spec.UAX29
/-!
# Specification vocabulary: using the iterator and `StepString` as documented
-/

namespace GoTable.Spec

/-- The iterator after `n` calls of `Next`. -/
def afterNext (g : Graphemes) : Nat → Graphemes
  | 0 => g
  | n + 1 => (afterNext g n).next.2

/-- What the `n+1`-st call of `Next` returns. -/
def nextReturns (g : Graphemes) (n : Nat) : Bool := (afterNext g n).next.1

/-- `(rest, state)` is a pair that documented use of `StepString` on `s` hands to a next call: start with
`s` and -1, then always pass on what the previous call returned. -/
inductive Handed (s : GoString) : GoString → Int → Prop
  | start : Handed s s (-1)
  | step {r : GoString} {st : Int} : Handed s r st → r ≠ [] →
      Handed s (stepString r st).rest (stepString r st).newState

/-- The first `i` runes of a text followed by the next one make a UAX #29 boundary. -/
def BoundaryAt (rs : List Nat) (i : Nat) (h : i < rs.length) : Prop :=
  Breaks ((rs.take i).map classOf) (classOf rs[i])

end GoTable.Spec
