import Verif.Spec.Iteration
import Verif.Spec.TwoTables
/-!
# Specification: stepping through a text
-/

namespace GoTable.Spec

/-- Calling `StepString` on what is left, with the state of the call before, until nothing is left: the clusters and the
widths that the calls return. -/
inductive Walk : GoString → Int → List (GoString × Nat) → Prop
  | done (st : Int) : Walk [] st []
  | step (s : GoString) (st : Int) (l : List (GoString × Nat)) (hs : s ≠ [])
      (h : Walk (stepString s st).rest (stepString s st).newState l) :
      Walk s st (((stepString s st).cluster, (stepString s st).boundaries >>> ShiftWidth) :: l)

/-- By how much a character of `differ` is wider in package uniseg. -/
def excess (r : Nat) : Int :=
  match differ.find? fun e => decide (e.1 ≤ r ∧ r ≤ e.2.1) with
  | some e => (e.2.2.2 : Int) - e.2.2.1
  | none => 0

end GoTable.Spec
