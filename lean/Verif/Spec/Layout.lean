import Verif.Model.Merge
/-!
# Specification: lines with places for cells
-/

namespace GoTable.Spec

/-- What stands at a place of a printed line: fixed text, spaces, the text of a cell as it is, or what the alignment of
column `col` makes of it when asked for `width` cells. -/
inductive Place
  | text (s : GoString)
  | gap (n : Nat)
  | cell (item col : Nat)
  | aligned (item col : Nat) (width : UInt16)

/-- Nothing is left to an alignment. -/
def Place.Fixed : Place → Prop
  | .aligned _ _ _ => False
  | _ => True

/-- The place belongs to an item of the list. -/
def Place.InRange (items : Nat) : Place → Prop
  | .cell i _ => i < items
  | .aligned i _ _ => i < items
  | _ => True

/-- Cell `col` of item `item`. -/
def cellOf (items : Items) (item col : Nat) : GoString := ((items.get item)[col]?).getD []

/-- What is printed at a place, given the cells and the alignments. -/
def shown (al : Nat → Alignment) (items : Items) : Place → GoString
  | .text s => s
  | .gap n => List.replicate n 0x20
  | .cell i j => cellOf items i j
  | .aligned i j w => al j (cellOf items i j) w

/-- A line filled in with the cells of a list. -/
def fill (al : Nat → Alignment) (items : Items) (line : List Place) : GoString := (line.map (shown al items)).flatten

/-- The alignments of the columns; columns without use AlignmentLeft. -/
def alignmentOf {σ ι ν ε : Type} (f : Flags) (t : Table σ ι ν ε) (j : Nat) : Alignment :=
  ((t.columns[j]?).bind (·.alignment)).getD (alignmentLeft f)

/-- Two lists of items, of the same length and with the same number of cells in each, whose cells are equally wide. -/
def SameWidths (f : Flags) (a b : Items) : Prop :=
  a.len = b.len ∧ ∀ i : Nat, i < a.len → (a.get i).map (visualWidth f) = (b.get i).map (visualWidth f)

/-- Rows with equally wide cells. -/
def EquallyWide (f : Flags) (rows rows' : List (List GoString)) : Prop :=
  rows.map (·.map (visualWidth f)) = rows'.map (·.map (visualWidth f))

end GoTable.Spec
