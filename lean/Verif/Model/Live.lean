import Verif.Model.Reenter
import Verif.Model.Talk
/-!
# The merges, with user code that uses the table

The list of a merge, its writer and the alignments of the columns are user code, and each of their calls can change
the table that is being printed: its columns, their names and alignments, the recorded widths, and the rows handed
over before. Here both merges are modelled once more, over objects in memory, as in `Model/Reenter.lean`. What is
read from memory is read at the point where /repo reads it.

`fuel` bounds the rounds of the compact search, as in `Model/Talk.lean`. The order of the panics of `item[colI]` and
`getWidth(colI, groupI)`, /repo/horizontal.go:56-57, is not specified in Go; here `item[colI]` comes first. No user
code is called between the two.
-/

namespace GoTable

variable {ι ν ε α β : Type}

/-- Sequencing. -/
def Chat.bind : Chat ι ν ε α → (α → Objects → Chat ι ν ε β) → Chat ι ν ε β
  | .ret a o, g => g a o
  | .panic why o, _ => .panic why o
  | .unfinished o, _ => .unfinished o
  | .value x item o k, g => .value x item o fun r o => (k r o).bind g
  | .format x item v o k, g => .format x item v o fun r o => (k r o).bind g
  | .valueString x name item o k, g => .valueString x name item o fun r o => (k r o).bind g
  | .align al text w o k, g => .align al text w o fun r o => (k r o).bind g
  | .len o k, g => .len o fun r o => (k r o).bind g
  | .get i o k, g => .get i o fun r o => (k r o).bind g
  | .write text o k, g => .write text o fun r o => (k r o).bind g

/-- A part of a method, which starts with the objects as they are then. -/
def Live (ι ν ε α : Type) : Type := Objects → Chat ι ν ε α

instance : Monad (Live ι ν ε) where
  pure a := fun o => .ret a o
  bind p g := fun o => (p o).bind g

/-- The objects as they are now. -/
def here : Live ι ν ε Objects := fun o => .ret o o
/-- A panic. -/
def stop (why : Fault) : Live ι ν ε α := fun o => .panic why o
/-- No more fuel. -/
def outOfFuel : Live ι ν ε α := fun o => .unfinished o

/-- The reply of user code; `none` is a panic, which is passed on. -/
def replied : Option α → Live ι ν ε α
  | none => stop .passedOn
  | some a => pure a

/-- One call of `items.Len()`. -/
def callLen : Live ι ν ε Int := fun o => .len o fun r o => replied r o
/-- One call of `items.Get(i)`. -/
def callGet (i : Int) : Live ι ν ε Slice := fun o => .get i o fun r o => replied r o
/-- One call of the writer; true if it returns an error. -/
def callWrite (text : GoString) : Live ι ν ε Bool := fun o => .write text o fun r o => replied r o
/-- One call of an alignment. -/
def callAlign (al : Nat) (text : GoString) (width : UInt16) : Live ι ν ε GoString :=
  fun o => .align al text width o fun r o => replied r o

/-- `t.Columns` as it is now. -/
def columnsNow (t : Nat) : Live ι ν ε Slice := fun o =>
  match o.columnsOf t with
  | none => .panic (.onNil .deref) o
  | some s => .ret s o

/-- The column at position `i` of the slice `s`, as it is now; nil is dereferenced by reading its fields. -/
def columnNow (s : Slice) (i : Nat) : Live ι ν ε ColumnObject := fun o =>
  match o.element s.array (s.first + i) with
  | none => .panic (.onNil .deref) o
  | some col => .ret (o.column col) o

/-- `item[colI]` as it is now, with Go's bounds check. -/
def cellNow (item : Slice) (colI : Nat) : Live ι ν ε GoString := fun o =>
  match item.get? o.strings colI with
  | none => .panic (.run .index) o
  | some text => .ret text o

/-- The loop of `TableWidth`, /repo/table.go:163-165, from column `i` on. -/
def tableWidthFrom (t : Nat) (s : Slice) (i : Nat) (width : UInt16) : Live ι ν ε UInt16 :=
  if i < s.len then do
    let col ← columnNow s i
    let o ← here
    tableWidthFrom t s (i + 1) (width + readWidth (o.widths t) col.name)
  else return width
termination_by s.len - i

/-- /repo/table.go:161-167 `TableWidth`. -/
def tableWidthL (t : Nat) (margin : UInt16) : Live ι ν ε UInt16 := do
  let s ← columnsNow t
  tableWidthFrom t s 0 ((UInt16.ofNat s.len - 1) * margin)

/-- /repo/horizontal.go:16,22-25, /repo/vertical.go:16,22-25: the initial number of groups. -/
def initialGroupCountL (t : Nat) (maxWidth margin : UInt16) : Live ι ν ε Nat := do
  let d := (← tableWidthL t margin) + margin
  if d = 0 then stop (.run .divideByZero)
  else
    let groupCount := ((maxWidth + margin) / d).toNat
    return if groupCount < 1 then 1 else groupCount

/-- `t.columnWidth[t.Columns[colI].Name]`, /repo/horizontal.go:26-28, /repo/vertical.go:26-28. -/
def getWidthTableL (t : Nat) (colI : Nat) (_groupI : Nat) : Live ι ν ε UInt16 := do
  let s ← columnsNow t
  if colI < s.len then
    let col ← columnNow s colI
    let o ← here
    return readWidth (o.widths t) col.name
  else stop (.run .index)

/-- `cellWidth[groupI*colN+colI]`, /repo/horizontal.go:33-35, /repo/vertical.go:33-35. -/
def getWidthCompactL (cellWidth : List UInt16) (colN : Nat) (colI : Nat) (groupI : Nat) : Live ι ν ε UInt16 :=
  match cellWidth[groupI * colN + colI]? with
  | none => stop (.run .index)
  | some w => return w

/-- /repo/alignment.go:9-15 `AlignmentLeft`, given what `visualWidth(str)` returns. -/
def alignmentLeftOf (strWidth : UInt16) (str : GoString) (width : UInt16) : GoString :=
  if strWidth ≥ width then str else str ++ spaces (width - strWidth).toNat

/-- The loop over the columns of one item, /repo/horizontal.go:50-59, /repo/vertical.go:50-59, from column `colI` on.
`s` has been evaluated before the loop; its elements are read one by one. `cell` has `colN` elements: with more
columns than that, the assignment panics once the alignment has returned; with fewer, the other elements stay
empty. -/
def renderCellsL (getWidth : Nat → Nat → Live ι ν ε UInt16) (groupI colN : Nat) (item s : Slice)
    (colI : Nat) : Live ι ν ε (List GoString) :=
  if colI < s.len then do
    let col ← columnNow s colI
    let str ← cellNow item colI
    let w ← getWidth colI groupI
    let text ← match col.alignment with
      | none => pure (alignmentLeftOf ((← here).answer colI str) str w)
      | some al => callAlign al str w
    if colI < colN then
      let rest ← renderCellsL getWidth groupI colN item s (colI + 1)
      return text :: rest
    else stop (.run .index)
  else return List.replicate (colN - colI) []
termination_by s.len - colI

/-- The loop over the groups of one line, /repo/horizontal.go:41-61 and /repo/vertical.go:41-61, from group `groupI`
on. -/
def lineGroupsL (t : Nat) (itemN : Int) (getWidth : Nat → Nat → Live ι ν ε UInt16) (colN : Nat)
    (index : Nat → Nat) (groupCount : Nat) (groupI : Nat) : Live ι ν ε (List GoString) :=
  if groupI < groupCount then
    let itemIdx := index groupI
    if (itemIdx : Int) ≥ itemN then return [[]]
    else do
      let item ← callGet itemIdx
      let s ← columnsNow t
      let cell ← renderCellsL getWidth groupI colN item s 0
      let rest ← lineGroupsL t itemN getWidth colN index groupCount (groupI + 1)
      return join innerSep cell :: rest
  else return []
termination_by groupCount - groupI

/-- The loop over the lines, /repo/horizontal.go:40-66, /repo/vertical.go:40-66, from line `lineI` on. -/
def writeLinesL (sep : GoString) (line : Nat → Live ι ν ε (List GoString)) (lineCount : Nat) (lineI : Nat) :
    Live ι ν ε Unit :=
  if lineI < lineCount then do
    let parts ← line lineI
    let failed ← callWrite (join sep parts ++ lit "\n")
    if failed then stop (.run .write) else writeLinesL sep line lineCount (lineI + 1)
  else return ()
termination_by lineCount - lineI

/-! ## Horizontal -/

/-- Innermost loop of `mergedRowsWidthH`, /repo/horizontal.go:100-106, from item `itemIdx` on. -/
def maxCellWidthHL (itemN : Int) (colI groupCount : Nat) (itemIdx : Nat) (mw : UInt16) :
    Live ι ν ε UInt16 :=
  if _h : (itemIdx : Int) < itemN ∧ 0 < groupCount then do
    let item ← callGet itemIdx
    let s ← cellNow item colI
    let w := (← here).answer colI s
    maxCellWidthHL itemN colI groupCount (itemIdx + groupCount) (if w > mw then w else mw)
  else return mw
termination_by itemN.toNat - itemIdx

/-- /repo/horizontal.go:91-111 `mergedRowsWidthH`. -/
def mergedRowsWidthHL (t : Nat) (groupCount : Nat) : Live ι ν ε (List UInt16) := do
  let itemN ← callLen
  let colN := (← columnsNow t).len
  let rows ← (List.range groupCount).mapM fun groupI =>
    (List.range colN).mapM fun colI => maxCellWidthHL itemN colI groupCount groupI 0
  return rows.flatten

/-- The loop of `compactCalcH`, /repo/horizontal.go:76-88, from `extra` on, for at most `fuel` rounds. -/
def compactLoopHL (t : Nat) (colN : Nat) (maxWidth margin : UInt16) (groupCountInit : Nat) :
    (fuel : Nat) → (extra : Nat) → (cellWidth : List UInt16) → Live ι ν ε (Nat × List UInt16)
  | 0, _, _ => outOfFuel
  | fuel + 1, extra, cellWidth => do
    let groupCount := groupCountInit + extra + 1
    let cellWidthNew ← mergedRowsWidthHL t groupCount
    if compactTotal margin (UInt16.ofNat colN) groupCount cellWidthNew > maxWidth then
      return (extra, cellWidth)
    else compactLoopHL t colN maxWidth margin groupCountInit fuel (extra + 1) cellWidthNew

/-- /repo/horizontal.go:69-89 `compactCalcH`. -/
def compactCalcHL (t : Nat) (maxWidth margin : UInt16) (groupCountInit fuel : Nat) :
    Live ι ν ε (Nat × List UInt16) := do
  let colN := (← columnsNow t).len
  compactLoopHL t colN maxWidth margin groupCountInit fuel 0 []

/-- /repo/horizontal.go:38-66 once the group count and `getWidth` are fixed. -/
def printHL (t : Nat) (sep : GoString) (groupCount : Nat) (getWidth : Nat → Nat → Live ι ν ε UInt16)
    (colN : Nat) : Live ι ν ε Unit := do
  let itemN ← callLen
  writeLinesL sep (fun lineI => lineGroupsL t itemN getWidth colN (indexH groupCount lineI) groupCount 0)
    (lineCountT itemN groupCount).toNat 0

/-- /repo/horizontal.go:9-67 `MergeRowsHorizontal`. -/
def mergeRowsHorizontalL (t : Nat) (maxWidthArg : Int) (sep : GoString) (compact : Bool) (fuel : Nat) :
    Live ι ν ε Unit := do
  let margin := u16 sep.length
  let colN := (← columnsNow t).len
  let maxWidth := maxWidthOf maxWidthArg
  let groupCount ← initialGroupCountL t maxWidth margin
  if compact then
    let r ← compactCalcHL t maxWidth margin groupCount fuel
    if r.1 > 0 then printHL t sep (groupCount + r.1) (getWidthCompactL r.2 colN) colN
    else printHL t sep groupCount (getWidthTableL t) colN
  else printHL t sep groupCount (getWidthTableL t) colN

/-! ## Vertical -/

/-- Innermost loop of `mergedRowsWidthV`, /repo/vertical.go:116-122, from item `itemIdx` on. -/
def maxCellWidthVL (colI : Nat) (endItemIdx itemIdx : Int) (mcw : UInt16) : Live ι ν ε UInt16 :=
  if itemIdx < endItemIdx then do
    let item ← callGet itemIdx
    let s ← cellNow item colI
    let cw := (← here).answer colI s
    maxCellWidthVL colI endItemIdx (itemIdx + 1) (if cw > mcw then cw else mcw)
  else return mcw
termination_by (endItemIdx - itemIdx).toNat

/-- /repo/vertical.go:94-128 `mergedRowsWidthV`; Go's nil result is `none`. -/
def mergedRowsWidthVL (t : Nat) (groupCount : Nat) : Live ι ν ε (Option (List UInt16)) := do
  let itemN ← callLen
  let colN := (← columnsNow t).len
  let lineCount := lineCountT itemN groupCount
  if lineCount = 0 then stop (.run .divideByZero)
  else if (groupCount : Int) > (itemN - 1).tdiv lineCount + 1 then return none
  else
    let rows ← (List.range groupCount).mapM fun (groupI : Nat) =>
      let endItemIdx := if ((groupI : Int) + 1) * lineCount > itemN then itemN
        else ((groupI : Int) + 1) * lineCount
      (List.range colN).mapM fun colI =>
        maxCellWidthVL colI endItemIdx (groupI * lineCount) 0
    return some rows.flatten

/-- The loop of `compactCalcV`, /repo/vertical.go:76-91, from `extra` on, for at most `fuel` rounds. -/
def compactLoopVL (t : Nat) (colN : Nat) (maxWidth margin : UInt16) (groupCountInit : Nat) :
    (fuel : Nat) → (extra : Nat) → (cellWidth : List UInt16) → Live ι ν ε (Nat × List UInt16)
  | 0, _, _ => outOfFuel
  | fuel + 1, extra, cellWidth => do
    let groupCount := groupCountInit + extra + 1
    match ← mergedRowsWidthVL t groupCount with
    | none => return (extra, cellWidth)
    | some cellWidthNew =>
      if compactTotal margin (UInt16.ofNat colN) groupCount cellWidthNew > maxWidth then
        return (extra, cellWidth)
      else compactLoopVL t colN maxWidth margin groupCountInit fuel (extra + 1) cellWidthNew

/-- /repo/vertical.go:69-92 `compactCalcV`. -/
def compactCalcVL (t : Nat) (maxWidth margin : UInt16) (groupCountInit fuel : Nat) :
    Live ι ν ε (Nat × List UInt16) := do
  let colN := (← columnsNow t).len
  compactLoopVL t colN maxWidth margin groupCountInit fuel 0 []

/-- /repo/vertical.go:38-66 once the group count and `getWidth` are fixed. -/
def printVL (t : Nat) (sep : GoString) (groupCount : Nat) (getWidth : Nat → Nat → Live ι ν ε UInt16)
    (colN : Nat) : Live ι ν ε Unit := do
  let itemN ← callLen
  let lineCount := (lineCountT itemN groupCount).toNat
  writeLinesL sep (fun lineI => lineGroupsL t itemN getWidth colN (indexV lineCount lineI) groupCount 0)
    lineCount 0

/-- /repo/vertical.go:9-67 `MergeRowsVertical`. -/
def mergeRowsVerticalL (t : Nat) (maxWidthArg : Int) (sep : GoString) (compact : Bool) (fuel : Nat) :
    Live ι ν ε Unit := do
  let margin := u16 sep.length
  let colN := (← columnsNow t).len
  let maxWidth := maxWidthOf maxWidthArg
  let groupCount ← initialGroupCountL t maxWidth margin
  if compact then
    let r ← compactCalcVL t maxWidth margin groupCount fuel
    if r.1 > 0 then printVL t sep (groupCount + r.1) (getWidthCompactL r.2 colN) colN
    else printVL t sep groupCount (getWidthTableL t) colN
  else printVL t sep groupCount (getWidthTableL t) colN

end GoTable
