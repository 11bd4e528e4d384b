import Verif.Model.Table
/-!
# Specs and tables made as literals

`Columns` and `ColumnByName` of /repo/table.go:24-28 are exported and `Table` embeds `*TableSpec`, so that other
packages can write `&TableSpec{}`, `&Table{TableSpec: spec}` or `AddColumn(nil)`. Then maps and pointers can be nil.
`Model/Table.lean` leaves this out; here the same functions are modelled with nil.
-/

namespace GoTable

variable {σ ι ν ε : Type}

/-- Run-time panics on nil. -/
inductive NilPanic where
  /-- assignment to entry in nil map -/
  | mapWrite
  /-- nil pointer dereference -/
  | deref
deriving DecidableEq, Repr

/-- /repo/table.go:24-28 `type TableSpec`; a nil map and nil columns are `none`. -/
structure LiteralSpec (σ ι ν ε : Type) where
  columnByName : Option (GoString → Option (Column σ ι ν ε))
  columns : List (Option (Column σ ι ν ε))

/-- `&TableSpec{}` -/
def zeroSpec : LiteralSpec σ ι ν ε := { columnByName := none, columns := [] }

/-- /repo/table.go:30-32 `HasColumn`: reading a nil map gives nil. -/
def LiteralSpec.hasColumn (t : LiteralSpec σ ι ν ε) (colName : GoString) : Bool :=
  match t.columnByName with
  | none => false
  | some m => (m colName).isSome

/-- /repo/table.go:34-37 `AddColumn`: the column is appended first; then `col.Name` is read, then the map is
written. -/
def LiteralSpec.addColumn (t : LiteralSpec σ ι ν ε) (col : Option (Column σ ι ν ε)) :
    Option NilPanic × LiteralSpec σ ι ν ε :=
  let t := { t with columns := t.columns ++ [col] }
  match col with
  | none => (some .deref, t)
  | some c =>
    match t.columnByName with
    | none => (some .mapWrite, t)
    | some m => (none, { t with columnByName := some fun n => if n = c.name then some c else m n })

/-- /repo/table.go:43-47 `type Table` with a spec; `columnWidth` is nil in `&Table{TableSpec: spec}`. -/
structure LiteralTable (σ ι ν ε : Type) where
  columns : List (Option (Column σ ι ν ε))
  columnWidth : Option WidthMap

/-- Reading `columnWidth[name]`, /repo/table.go:75; a nil map reads as 0. -/
def readWidth (cw : Option WidthMap) (name : GoString) : UInt16 :=
  match cw with
  | none => 0
  | some m => m name

/-- `if width > cw[name] { cw[name] = width }`, /repo/table.go:68-70 and 113-115. -/
def raiseWidth (cw : Option WidthMap) (name : GoString) (width : UInt16) : Except NilPanic (Option WidthMap) :=
  if width > readWidth cw name then
    match cw with
    | none => .error .mapWrite
    | some m => .ok (some (WidthMap.set m name width))
  else .ok cw

/-- /repo/table.go:66-72 `UpdateWidth`: the panic, if any, and the map afterwards. -/
def literalUpdateWidth (cw : Option WidthMap) : List (GoString × UInt16) → Option NilPanic × Option WidthMap
  | [] => (none, cw)
  | (name, width) :: rest =>
    match raiseWidth cw name width with
    | .error p => (some p, cw)
    | .ok cw => literalUpdateWidth cw rest

/-- How a call of `FormatItem` ends. -/
inductive FormatEnd (ε : Type) where
  | row (cells : List GoString)
  | error (e : ε)
  | panic (p : NilPanic)
deriving DecidableEq, Repr

/-- The loop of `FormatItem`, /repo/table.go:98-116, on columns that may be nil and a map that may be nil. -/
def literalFormatLoop (f : Flags) (item : ι) :
    List (Option (Column σ ι ν ε)) → (formatted : List GoString) → Option WidthMap → σ →
      FormatEnd ε × Option WidthMap × σ
  | [], formatted, cw, st => (.row formatted, cw, st)
  | none :: _, _, cw, st => (.panic .deref, cw, st)
  | some col :: cols, formatted, cw, st =>
    match col.getter.value item st with
    | (.error e, st) => (.error e, cw, st)
    | (.ok value, st) =>
      match col.getter.format item value st with
      | (.error e, st) => (.error e, cw, st)
      | (.ok valueFormatted, st) =>
        match raiseWidth cw col.name (visualWidth f valueFormatted) with
        | .error p => (.panic p, cw, st)
        | .ok cw => literalFormatLoop f item cols (formatted ++ [valueFormatted]) cw st

/-- /repo/table.go:95-118 `FormatItem`. -/
def LiteralTable.formatItem (f : Flags) (t : LiteralTable σ ι ν ε) (item : ι) (st : σ) :
    FormatEnd ε × LiteralTable σ ι ν ε × σ :=
  let r := literalFormatLoop f item t.columns [] t.columnWidth st
  (r.1, { t with columnWidth := r.2.1 }, r.2.2)

/-- /repo/table.go:161-167 `TableWidth`; `none` is a nil pointer dereference. -/
def LiteralTable.tableWidth (t : LiteralTable σ ι ν ε) (margin : UInt16) : Option UInt16 :=
  t.columns.foldlM (fun width col => col.map fun c => width + readWidth t.columnWidth c.name)
    ((UInt16.ofNat t.columns.length - 1) * margin)

end GoTable
