import Verif.Spec.Talk
/-!
# Specification: what a merge costs

The lengths a list was asked for, besides the items asked for and the lines written (`Spec/Talk.lean`).
-/

namespace GoTable.Spec

/-- The lengths the list gave, in order. -/
def lengths : List Event → List Int
  | [] => []
  | .len n :: es => n :: lengths es
  | _ :: es => lengths es

end GoTable.Spec
