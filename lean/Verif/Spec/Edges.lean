import Verif.Model.GoString
import Verif.Spec.UAX29
/-!
# Specification: texts whose first or last character joins a neighbouring space
-/

namespace GoTable.Spec

/-- The first character joins the cluster of whatever is put before it. -/
def StartsExtending (s : GoString) : Prop :=
  ∃ r, (runes s).head? = some r ∧ (classOf r = .extend ∨ classOf r = .zwj ∨ classOf r = .spacingMark)

/-- A character that goes into the cluster of whatever stands before it. -/
def Extending (r : Nat) : Prop := classOf r = .extend ∨ classOf r = .zwj ∨ classOf r = .spacingMark

instance (r : Nat) : Decidable (Extending r) := by unfold Extending; infer_instance

/-- The text without the extending characters it starts with. -/
def skipExtending (s : GoString) : GoString :=
  s.drop (((tokens s).takeWhile fun k => Extending k.1).map Prod.snd).sum

/-- The last character pulls whatever is put after it into its cluster. -/
def EndsInPrepend (s : GoString) : Prop := ((runes s).map classOf).getLast? = some .prepend

instance (s : GoString) : Decidable (EndsInPrepend s) := by unfold EndsInPrepend; infer_instance

instance (s : GoString) : Decidable (StartsExtending s) :=
  decidable_of_iff (∃ r ∈ (runes s).head?,
    (classOf r = .extend ∨ classOf r = .zwj ∨ classOf r = .spacingMark)) (by
      simp [StartsExtending, Option.mem_def])

end GoTable.Spec
