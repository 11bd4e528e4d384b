import Verif.Model.Literal
import Verif.Model.Merge
/-!
# Getters and alignments that use the table they are called from

In `Model/Table.lean` getters and alignments cannot reach the table whose method calls them. In Go they can:
a getter can call `UpdateWidth`, `AddColumn` or `FormatItem` of the same table, and since `TableSpec`, `Columns`
and all fields of `Column` are exported, it can replace columns, or change them, while the table is being
formatted. It can also assign a whole `Table` (`*t = *other`), which copies the references to its spec and to its
width map, so that several tables can share one map. And it can change the settings of the package runewidth, after
which the cache of widths (/repo/width.go:19) still holds widths from before. Here the three methods of
/repo/table.go that call user code are modelled again, over objects in memory, one call of user code after the
other. Each call hands over the objects as they are and gets them back as the user code left them. The merges are in
`Model/Live.lean`.
-/

namespace GoTable

/-- /repo/table.go:14-22 `type Column` as an object: getter and alignment are references to user code, nil is `none`.
`Type` is never read; the titles are not read by the methods modelled here. -/
structure ColumnObject where
  getter : Option Nat
  alignment : Option Nat
  name : GoString

/-- The objects in memory. Everything but `recorded` is open to user code; `widthMap` only by assigning whole tables,
`answer` only by changing settings and by filling the cache. -/
structure Objects where
  /-- the embedded pointer `*TableSpec` of a table, /repo/table.go:44 -/
  spec : Nat → Option Nat
  /-- the slice `Columns` of a spec, /repo/table.go:27 -/
  columns : Nat → Slice
  /-- arrays of `*Column`; the elements can be nil -/
  element : Nat → Nat → Option Nat
  column : Nat → ColumnObject
  /-- arrays of strings -/
  strings : Memory
  /-- the map `columnWidth` of a table, /repo/table.go:45, a reference; nil for tables made as literals -/
  widthMap : Nat → Option Nat
  /-- the entries of the width maps; those that are not made yet count as empty -/
  recorded : Nat → WidthMap
  /-- `answer i s` is what `visualWidth(s)`, /repo/width.go:23-37, returns if it is called for the cell at position `i`
  before any more user code is called. Between two calls of user code, one text is measured for each position at
  most. The answers follow from the settings of the package runewidth and from the cache. Both can be changed by
  user code. What the cache forgets meanwhile counts as forgotten in the next call of user code. -/
  answer : Nat → GoString → UInt16

/-- What table `t` has recorded. -/
def Objects.widths (o : Objects) (t : Nat) : Option WidthMap := (o.widthMap t).map o.recorded

/-- `*t = *src`: both fields of /repo/table.go:43-46 are references. -/
def Objects.assign (o : Objects) (t src : Nat) : Objects :=
  { o with
    spec := fun t' => if t' = t then o.spec src else o.spec t'
    widthMap := fun t' => if t' = t then o.widthMap src else o.widthMap t' }

/-- Why a method panics: nil, because the user code it called did, or another run-time panic. -/
inductive Fault where
  | onNil (p : NilPanic)
  | passedOn
  | run (p : Panic)
deriving DecidableEq, Repr

/-- What user code replies: a result, an error, or it panics. -/
inductive Reply (ε α : Type) where
  | ok (a : α)
  | error (e : ε)
  | panicked
deriving DecidableEq, Repr

/-- A method at work: returned, panicked, out of fuel, or about to call user code and to go on with its reply and
with the objects as it leaves them. An alignment replies with a text, the list of a merge with a length or a slice,
the writer with whether it failed; `none` is a panic. -/
inductive Chat (ι ν ε α : Type) where
  | ret (a : α) (o : Objects)
  | panic (why : Fault) (o : Objects)
  | unfinished (o : Objects)
  | value (getter : Nat) (item : ι) (o : Objects) (k : Reply ε ν → Objects → Chat ι ν ε α)
  | format (getter : Nat) (item : ι) (v : ν) (o : Objects) (k : Reply ε GoString → Objects → Chat ι ν ε α)
  | valueString (getter : Nat) (colName : GoString) (item : ι) (o : Objects)
    (k : Reply ε GoString → Objects → Chat ι ν ε α)
  | align (alignment : Nat) (text : GoString) (width : UInt16) (o : Objects)
    (k : Option GoString → Objects → Chat ι ν ε α)
  | len (o : Objects) (k : Option Int → Objects → Chat ι ν ε α)
  | get (i : Int) (o : Objects) (k : Option Slice → Objects → Chat ι ν ε α)
  | write (text : GoString) (o : Objects) (k : Option Bool → Objects → Chat ι ν ε α)

variable {ι ν ε : Type}

/-- `t.Columns` as it is now; `none` is a nil pointer dereference. -/
def Objects.columnsOf (o : Objects) (t : Nat) : Option Slice := (o.spec t).map o.columns

/-- `if width > cw[col.Name] { cw[col.Name] = width }`, /repo/table.go:113-115. -/
def Objects.raise (o : Objects) (cw : Option Nat) (name : GoString) (width : UInt16) : Except NilPanic Objects :=
  match raiseWidth (cw.map o.recorded) name width with
  | .error p => .error p
  | .ok none => .ok o
  | .ok (some m) => .ok { o with recorded := fun r => if cw = some r then m else o.recorded r }

/-- The loop of `FormatItem`, /repo/table.go:98-116, from column `i` on. The width map `cw` and the slice `s` have
been evaluated before the loop; the elements of `s` are read one by one. `col.Getter` is read for each of the two
calls and `col.Name` after them. -/
def formatItemFrom (cw : Option Nat) (item : ι) (s : Slice) (i : Nat) (formatted : List GoString)
    (o : Objects) : Chat ι ν ε (Except ε (List GoString)) :=
  if i < s.len then
    match o.element s.array (s.first + i) with
    | none => .panic (.onNil .deref) o
    | some col =>
      match (o.column col).getter with
      | none => .panic (.onNil .deref) o
      | some g => .value g item o fun r o =>
        match r with
        | .panicked => .panic .passedOn o
        | .error e => .ret (.error e) o
        | .ok v =>
          match (o.column col).getter with
          | none => .panic (.onNil .deref) o
          | some g => .format g item v o fun r o =>
            match r with
            | .panicked => .panic .passedOn o
            | .error e => .ret (.error e) o
            | .ok valueFormatted =>
              match o.raise cw (o.column col).name (o.answer i valueFormatted) with
              | .error p => .panic (.onNil p) o
              | .ok o => formatItemFrom cw item s (i + 1) (formatted ++ [valueFormatted]) o
  else .ret (.ok formatted) o
termination_by s.len - i

/-- /repo/table.go:95-118 `FormatItem` of table `t`. -/
def formatItemR (t : Nat) (item : ι) (o : Objects) : Chat ι ν ε (Except ε (List GoString)) :=
  match o.columnsOf t with
  | none => .panic (.onNil .deref) o
  | some s => formatItemFrom (o.widthMap t) item s 0 [] o

/-- The loop of `FormatItemBasic`, /repo/table.go:82-91, from column `i` on. -/
def formatItemBasicFrom (item : ι) (sep : GoString) (s : Slice) (i : Nat) (str : GoString) (o : Objects) :
    Chat ι ν ε (Except ε GoString) :=
  if i < s.len then
    match o.element s.array (s.first + i) with
    | none => .panic (.onNil .deref) o
    | some col =>
      match (o.column col).getter with
      | none => .panic (.onNil .deref) o
      | some g => .valueString g (o.column col).name item o fun r o =>
        match r with
        | .panicked => .panic .passedOn o
        | .error e => .ret (.error e) o
        | .ok colStr =>
          formatItemBasicFrom item sep s (i + 1) ((if i > 0 then str ++ sep else str) ++ colStr) o
  else .ret (.ok str) o
termination_by s.len - i

/-- /repo/table.go:80-93 `FormatItemBasic` of table `t`. An error return also carries the string "". -/
def formatItemBasicR (t : Nat) (item : ι) (sep : GoString) (o : Objects) : Chat ι ν ε (Except ε GoString) :=
  match o.columnsOf t with
  | none => .panic (.onNil .deref) o
  | some s => formatItemBasicFrom item sep s 0 [] o

/-- `formatted[i] = v` -/
def Objects.setString (o : Objects) (s : Slice) (i : Nat) (v : GoString) : Objects :=
  { o with strings := fun a k => if a = s.array ∧ k = s.first + i then v else o.strings a k }

/-- The loop of `AlignFormattedItem`, /repo/table.go:124-132, from column `i` on. `formatted` is as long as `s`, so
indexing it does not panic. -/
def alignItemFrom (t : Nat) (formatted : Slice) (s : Slice) (i : Nat) (o : Objects) :
    Chat ι ν ε (Except (Nat × Nat) Slice) :=
  if i < s.len then
    match o.element s.array (s.first + i) with
    | none => .panic (.onNil .deref) o
    | some col =>
      match (o.column col).alignment with
      | none => alignItemFrom t formatted s (i + 1) o
      | some al => .align al (o.strings formatted.array (formatted.first + i))
          (readWidth (o.widths t) (o.column col).name) o fun r o =>
        match r with
        | none => .panic .passedOn o
        | some x => alignItemFrom t formatted s (i + 1) (o.setString formatted i x)
  else .ret (.ok formatted) o
termination_by s.len - i

/-- /repo/table.go:120-134 `AlignFormattedItem` of table `t`: the slice, or the two numbers of the error message. -/
def alignItemR (t : Nat) (formatted : Slice) (o : Objects) : Chat ι ν ε (Except (Nat × Nat) Slice) :=
  match o.columnsOf t with
  | none => .panic (.onNil .deref) o
  | some s =>
    if formatted.len ≠ s.len then .ret (.error (formatted.len, s.len)) o
    else alignItemFrom t formatted s 0 o

end GoTable
