import Verif.Spec.Merge
import Verif.Spec.UTF8
/-!
# Specification: formatting items, aligning rows and showing them
-/

namespace GoTable.Spec

variable {σ ι ν ε : Type}

/-- A list of rows as the argument of a merge. -/
def itemsOf (rows : List (List GoString)) : Items := { len := rows.length, get := fun k => rows.getD k.toNat [] }

/-- What a slice holds. -/
def contents (m : Memory) (s : Slice) : List GoString := (List.range s.len).map fun i => m s.array (s.first + i)

/-- The rows of `items'` are those of `items` after `AlignFormattedItem` of `t`, each in a slice of its own. -/
def AlignedBy (t : Table σ ι ν ε) (items items' : Items) : Prop :=
  items'.len = items.len ∧ ∀ k : Nat, k < items.len → ∃ m s m', t.alignFormattedItem m s = some (.ok s, m') ∧
    items.get k = contents m s ∧ items'.get k = contents m' s

/-- Where column `c` starts in a line with a separator after each column. -/
def columnStart (t : Table σ ι ν ε) (sepLen c : Nat) : Nat :=
  ((t.columns.take c).map fun col => (t.columnWidth col.name).toNat + sepLen).sum

/-- A title measured no wider than its bytes that joins neither neighbour. -/
structure TitleOk (f : Flags) (x : GoString) : Prop where
  no9b : 0x9B ∉ runes x
  start : ¬ StartsExtending x
  finish : ¬ EndsInPrepend x
  valid : f.eastAsianWidth = false ∨ ValidUTF8 x

end GoTable.Spec
