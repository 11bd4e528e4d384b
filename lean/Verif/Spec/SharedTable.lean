import Verif.Model.SharedTable
/-!
# Specification: calls that leave the widths of a table alone
-/

namespace GoTable.Spec

/-- Alone on a table with widths `cw` the computation writes nothing. -/
def WritesNothing {α : Type} : Acts α → WidthMap → Prop
  | .ret _, _ => True
  | .read n k, cw => WritesNothing (k (cw n)) cw
  | .write _ _ _, _ => False

/-- It writes nothing, and computes `a`. -/
def Answers {α : Type} (p : Acts α) (cw : WidthMap) (a : α) : Prop := WritesNothing p cw ∧ (p.run cw).1 = a

/-- It does not use the widths at all. -/
def Idle {α : Type} (p : Acts α) : Prop := ∃ a, p = .ret a

end GoTable.Spec
