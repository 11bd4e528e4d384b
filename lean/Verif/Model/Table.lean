import Verif.Model.Align
/-!
# /repo/table.go and /repo/table_iface.go

Getters are user code. They may fail and may have side effects: a getter method maps a user state `σ`
to a result and a new user state. `ι` is the type of items, `ν` of values (`any` in Go), `ε` of errors.
-/

namespace GoTable

/-- /repo/table_iface.go:8-12 `type Getter`. -/
structure Getter (σ ι ν ε : Type) where
  value : ι → σ → Except ε ν × σ
  valueString : GoString → ι → σ → Except ε GoString × σ
  format : ι → ν → σ → Except ε GoString × σ

/-- /repo/table.go:14-22 `type Column`. The field `Type` is never read and is left out. A nil
`Alignment` is `none`. -/
structure Column (σ ι ν ε : Type) where
  getter : Getter σ ι ν ε
  alignment : Option Alignment
  name : GoString
  title : GoString
  shortTitle : GoString

/-- The map `columnWidth map[string]uint16`, /repo/table.go:45; a missing key reads as 0. -/
abbrev WidthMap := GoString → UInt16

/-- `m[k] = v` -/
def WidthMap.set (m : WidthMap) (k : GoString) (v : UInt16) : WidthMap :=
  fun k' => if k' = k then v else m k'

/-- A table as its methods see it: /repo/table.go:43-47 with the embedded spec's columns (24-28).
Sharing of the spec between tables is modelled in `World` below. -/
structure Table (σ ι ν ε : Type) where
  columns : List (Column σ ι ν ε)
  columnWidth : WidthMap

variable {σ ι ν ε : Type}

/-- /repo/table.go:39-41 `ColumnCount`. -/
def Table.columnCount (t : Table σ ι ν ε) : Nat := t.columns.length

/-- /repo/table.go:66-72 `UpdateWidth`: `entries` are the entries of the argument map in the order in
which Go happens to iterate over them. -/
def updateWidth (cw : WidthMap) (entries : List (GoString × UInt16)) : WidthMap :=
  entries.foldl (fun cw e => if e.2 > cw e.1 then WidthMap.set cw e.1 e.2 else cw) cw

/-- /repo/table.go:74-76 `Width`. -/
def Table.width (t : Table σ ι ν ε) (colName : GoString) : UInt16 := t.columnWidth colName

/-- The loop of `FormatItemBasic`, /repo/table.go:82-91, from column number `index` on. -/
def formatItemBasicLoop (item : ι) (sep : GoString) :
    List (Column σ ι ν ε) → (index : Nat) → (str : GoString) → σ → Except ε GoString × σ
  | [], _, str, st => (.ok str, st)
  | col :: cols, index, str, st =>
    match col.getter.valueString col.name item st with
    | (.error e, st) => (.error e, st)
    | (.ok colStr, st) =>
      let str := if index > 0 then str ++ sep else str
      formatItemBasicLoop item sep cols (index + 1) (str ++ colStr) st

/-- /repo/table.go:80-93 `FormatItemBasic`. An error return also carries the string "". -/
def Table.formatItemBasic (t : Table σ ι ν ε) (item : ι) (sep : GoString) (st : σ) :
    Except ε GoString × σ :=
  formatItemBasicLoop item sep t.columns 0 [] st

/-- The loop of `FormatItem`, /repo/table.go:98-116: cells formatted so far, the width map and the user
state. The map is updated in place, so it is returned on error as well. -/
def formatItemLoop (f : Flags) (item : ι) :
    List (Column σ ι ν ε) → (formatted : List GoString) → WidthMap → σ →
      Except ε (List GoString) × WidthMap × σ
  | [], formatted, cw, st => (.ok formatted, cw, st)
  | col :: cols, formatted, cw, st =>
    match col.getter.value item st with
    | (.error e, st) => (.error e, cw, st)
    | (.ok value, st) =>
      match col.getter.format item value st with
      | (.error e, st) => (.error e, cw, st)
      | (.ok valueFormatted, st) =>
        let width := visualWidth f valueFormatted
        let cw := if width > cw col.name then WidthMap.set cw col.name width else cw
        formatItemLoop f item cols (formatted ++ [valueFormatted]) cw st

/-- /repo/table.go:95-118 `FormatItem`: the result, the table with its widths updated, and the user
state. -/
def Table.formatItem (f : Flags) (t : Table σ ι ν ε) (item : ι) (st : σ) :
    Except ε (List GoString) × Table σ ι ν ε × σ :=
  let r := formatItemLoop f item t.columns [] t.columnWidth st
  (r.1, { t with columnWidth := r.2.1 }, r.2.2)

/-- /repo/table.go:136-150 `padColumnHeader`. `len` is the length in bytes. -/
def Table.padColumnHeader (f : Flags) (t : Table σ ι ν ε) (col : Column σ ι ν ε) : GoString :=
  let width := t.width col.name
  let value := col.title
  if width = 0 then value
  else
    let value :=
      if value.length > width.toNat then
        if col.shortTitle.length > width.toNat then [] else col.shortTitle
      else value
    alignmentCenter f value width

/-- /repo/table.go:152-159 `FormatHeader`. -/
def Table.formatHeader (f : Flags) (t : Table σ ι ν ε) (sep : GoString) : GoString :=
  (t.columns.foldl (fun str col => str ++ (t.padColumnHeader f col ++ sep)) []) ++ lit "\n"

/-- /repo/table.go:161-167 `TableWidth`, in uint16 arithmetic. -/
def Table.tableWidth (t : Table σ ι ν ε) (margin : UInt16) : UInt16 :=
  t.columns.foldl (fun width col => width + t.width col.name)
    ((UInt16.ofNat t.columnCount - 1) * margin)

/-! ## AlignFormattedItem and the caller's slice

A slice is a window into a backing array; several slices can overlap. -/

/-- Backing arrays by address, each a function from index to element. -/
abbrev Memory := Nat → Nat → GoString

/-- A Go slice: the array it points into, the index of its first element there, and its length. The
capacity plays no part in indexing. -/
structure Slice where
  array : Nat
  first : Nat
  len : Nat

/-- Reading `s[i]`; `none` is Go's index-out-of-range panic. -/
def Slice.get? (s : Slice) (m : Memory) (i : Nat) : Option GoString :=
  if i < s.len then some (m s.array (s.first + i)) else none

/-- Writing `s[i] = v`; `none` is Go's index-out-of-range panic. -/
def Slice.set? (s : Slice) (m : Memory) (i : Nat) (v : GoString) : Option Memory :=
  if i < s.len then
    some fun a k => if a = s.array ∧ k = s.first + i then v else m a k
  else none

/-- The in-place loop of `AlignFormattedItem`, /repo/table.go:124-132, from column `i` on. `none` is an
index-out-of-range panic. -/
def alignLoop (cw : WidthMap) (s : Slice) : List (Column σ ι ν ε) → (i : Nat) → Memory → Option Memory
  | [], _, m => some m
  | col :: cols, i, m =>
    match col.alignment with
    | none => alignLoop cw s cols (i + 1) m
    | some al =>
      match s.get? m i with
      | none => none
      | some x =>
        match s.set? m i (al x (cw col.name)) with
        | none => none
        | some m => alignLoop cw s cols (i + 1) m

/-- /repo/table.go:120-134 `AlignFormattedItem`: the returned slice or the two numbers of the error
message, and the memory afterwards; `none` is a panic. -/
def Table.alignFormattedItem (t : Table σ ι ν ε) (m : Memory) (s : Slice) :
    Option (Except (Nat × Nat) Slice × Memory) :=
  if s.len ≠ t.columnCount then some (.error (s.len, t.columnCount), m)
  else
    match alignLoop t.columnWidth s t.columns 0 m with
    | none => none
    | some m => some (.ok s, m)

/-! ## Specs and tables that share them -/

/-- /repo/table.go:24-28 `type TableSpec`, without `TimeFormat`, which is never read. -/
structure TableSpec (σ ι ν ε : Type) where
  columnByName : GoString → Option (Column σ ι ν ε)
  columns : List (Column σ ι ν ε)

/-- /repo/table.go:49-54 `NewTableSpec`. -/
def newTableSpec : TableSpec σ ι ν ε := { columnByName := fun _ => none, columns := [] }

/-- /repo/table.go:30-32 `HasColumn`. -/
def TableSpec.hasColumn (t : TableSpec σ ι ν ε) (colName : GoString) : Bool :=
  (t.columnByName colName).isSome

/-- /repo/table.go:34-37 `AddColumn` with a non-nil column (nil panics in Go). -/
def TableSpec.addColumn (t : TableSpec σ ι ν ε) (col : Column σ ι ν ε) : TableSpec σ ι ν ε :=
  { columns := t.columns ++ [col]
    columnByName := fun n => if n = col.name then some col else t.columnByName n }

/-- A heap of specs and tables; a table holds the index of its spec (the pointer `*TableSpec` of
/repo/table.go:44) and its own width map. -/
structure World (σ ι ν ε : Type) where
  specs : List (TableSpec σ ι ν ε)
  tables : List (Nat × WidthMap)

/-- Calls a program can make. Indices name objects created earlier, in order of creation. -/
inductive WorldOp (σ ι ν ε : Type) where
  /-- `NewTableSpec()`, /repo/table.go:49-54 -/
  | newSpec
  /-- `NewTable(spec)`, /repo/table.go:56-64 -/
  | newTable (spec : Nat)
  /-- `NewTable(nil)`, /repo/table.go:57-59: makes a fresh spec -/
  | newTableNil
  /-- `spec.AddColumn(col)` -/
  | addColumn (spec : Nat) (col : Column σ ι ν ε)
  /-- `table.AddColumn(col)`: the promoted method of the embedded spec -/
  | tableAddColumn (table : Nat) (col : Column σ ι ν ε)
  /-- `table.UpdateWidth(m)` -/
  | updateWidth (table : Nat) (entries : List (GoString × UInt16))
  /-- `table.FormatItem(item)` with the given user state -/
  | formatItem (table : Nat) (item : ι) (st : σ)

/-- The empty heap. -/
def World.empty : World σ ι ν ε := { specs := [], tables := [] }

/-- The table object as its methods see it. -/
def World.table? (w : World σ ι ν ε) (i : Nat) : Option (Table σ ι ν ε) :=
  match w.tables[i]? with
  | none => none
  | some (sp, cw) =>
    match w.specs[sp]? with
    | none => none
    | some s => some { columns := s.columns, columnWidth := cw }

/-- Effect of a call on the heap. Calls that name an object which does not exist cannot occur in a Go
program and change nothing. -/
def World.step (f : Flags) (w : World σ ι ν ε) : WorldOp σ ι ν ε → World σ ι ν ε
  | .newSpec => { w with specs := w.specs ++ [newTableSpec] }
  | .newTable sp =>
    if sp < w.specs.length then { w with tables := w.tables ++ [(sp, fun _ => 0)] } else w
  | .newTableNil =>
    { specs := w.specs ++ [newTableSpec], tables := w.tables ++ [(w.specs.length, fun _ => 0)] }
  | .addColumn sp col => { w with specs := w.specs.modify sp (·.addColumn col) }
  | .tableAddColumn t col =>
    match w.tables[t]? with
    | none => w
    | some (sp, _) => { w with specs := w.specs.modify sp (·.addColumn col) }
  | .updateWidth t entries =>
    { w with tables := w.tables.modify t (fun (sp, cw) => (sp, GoTable.updateWidth cw entries)) }
  | .formatItem t item st =>
    match w.table? t with
    | none => w
    | some tb =>
      { w with tables := w.tables.modify t (fun (sp, _) => (sp, (tb.formatItem f item st).2.1.columnWidth)) }

end GoTable
