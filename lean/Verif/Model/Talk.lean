import Verif.Model.Merge
/-!
# The calls the merges make to the caller's list and writer

In `Model/Merge.lean` the list of items is a fixed list. In /repo it is user code
(`FormattedItemList`, /repo/table_iface.go:3-6): each `Len()` and each `Get(i)` is a call that may answer
differently every time, `Len()` may be negative, and the writer is user code too. Here both merges are
modelled a third time, as a conversation with that code, one call after the other. Alignment functions
are taken to be pure here. What concerns neither list nor writer (`renderCells`, `initialGroupCount`, …)
is taken from `Model/Merge.lean`.
-/

namespace GoTable

variable {σ ι ν ε : Type}

/-- A computation that talks to the list and the writer: finished, panicked, out of fuel, or about to make
a call and to go on with the answer. `write` is answered by whether it failed. -/
inductive Talk (α : Type) where
  | ret (a : α)
  | panic (p : Panic)
  | unfinished
  | len (k : Int → Talk α)
  | get (i : Int) (k : List GoString → Talk α)
  | write (text : GoString) (k : Bool → Talk α)

/-- Sequencing. -/
def Talk.bind {α β : Type} : Talk α → (α → Talk β) → Talk β
  | .ret a, g => g a
  | .panic p, _ => .panic p
  | .unfinished, _ => .unfinished
  | .len k, g => .len fun n => (k n).bind g
  | .get i k, g => .get i fun r => (k r).bind g
  | .write s k, g => .write s fun b => (k b).bind g

instance : Monad Talk where
  pure := .ret
  bind := .bind

/-- One call of `items.Len()`. -/
def askLen : Talk Int := .len .ret
/-- One call of `items.Get(i)`. -/
def askGet (i : Int) : Talk (List GoString) := .get i .ret
/-- One call of the writer; true if it returns an error. -/
def askWrite (text : GoString) : Talk Bool := .write text .ret

/-- A computation without calls. -/
def Talk.ofExcept {α : Type} : Except Panic α → Talk α
  | .ok a => .ret a
  | .error p => .panic p

/-- The loop over the groups of one line, /repo/horizontal.go:41-61 and /repo/vertical.go:41-61, from
group `groupI` on. -/
def lineGroupsT (f : Flags) (t : Table σ ι ν ε) (itemN : Int)
    (getWidth : Nat → Nat → Except Panic UInt16) (index : Nat → Nat) (groupCount : Nat)
    (groupI : Nat) : Talk (List GoString) :=
  if groupI < groupCount then
    let itemIdx := index groupI
    if (itemIdx : Int) ≥ itemN then return [[]]
    else do
      let item ← askGet itemIdx
      let cell ← Talk.ofExcept (renderCells f getWidth groupI item t.columns 0)
      let rest ← lineGroupsT f t itemN getWidth index groupCount (groupI + 1)
      return join innerSep cell :: rest
  else return []
termination_by groupCount - groupI

/-- The loop over the lines, /repo/horizontal.go:40-66, /repo/vertical.go:40-66, from line `lineI` on. -/
def writeLinesT (sep : GoString) (line : Nat → Talk (List GoString)) (lineCount : Nat) (lineI : Nat) :
    Talk Unit :=
  if lineI < lineCount then do
    let parts ← line lineI
    let failed ← askWrite (join sep parts ++ lit "\n")
    if failed then .panic .write else writeLinesT sep line lineCount (lineI + 1)
  else return ()
termination_by lineCount - lineI

/-- `(itemN-1)/groupCount + 1`, /repo/horizontal.go:39, /repo/vertical.go:39 and 100, for any `itemN`. -/
def lineCountT (itemN : Int) (groupCount : Nat) : Int := (itemN - 1).tdiv groupCount + 1

/-! ## Horizontal -/

/-- Innermost loop of `mergedRowsWidthH`, /repo/horizontal.go:100-106, from item `itemIdx` on. -/
def maxCellWidthHT (f : Flags) (itemN : Int) (colI groupCount : Nat) (itemIdx : Nat) (mw : UInt16) :
    Talk UInt16 :=
  if _h : (itemIdx : Int) < itemN ∧ 0 < groupCount then do
    let item ← askGet itemIdx
    let s ← Talk.ofExcept (cellAt item colI)
    let w := visualWidth f s
    maxCellWidthHT f itemN colI groupCount (itemIdx + groupCount) (if w > mw then w else mw)
  else return mw
termination_by itemN.toNat - itemIdx

/-- /repo/horizontal.go:91-111 `mergedRowsWidthH`. -/
def mergedRowsWidthHT (f : Flags) (t : Table σ ι ν ε) (groupCount : Nat) : Talk (List UInt16) := do
  let itemN ← askLen
  let rows ← (List.range groupCount).mapM fun groupI =>
    (List.range t.columnCount).mapM fun colI => maxCellWidthHT f itemN colI groupCount groupI 0
  return rows.flatten

/-- /repo/horizontal.go:69-89 `compactCalcH`, the loop from `extra` on, for at most `fuel` rounds. -/
def compactLoopHT (f : Flags) (t : Table σ ι ν ε) (maxWidth margin : UInt16) (groupCountInit : Nat) :
    (fuel : Nat) → (extra : Nat) → (cellWidth : List UInt16) → Talk (Nat × List UInt16)
  | 0, _, _ => .unfinished
  | fuel + 1, extra, cellWidth => do
    let groupCount := groupCountInit + extra + 1
    let cellWidthNew ← mergedRowsWidthHT f t groupCount
    if compactTotal margin (UInt16.ofNat t.columnCount) groupCount cellWidthNew > maxWidth then
      return (extra, cellWidth)
    else compactLoopHT f t maxWidth margin groupCountInit fuel (extra + 1) cellWidthNew

/-- /repo/horizontal.go:38-66 once the group count and `getWidth` are fixed. -/
def printHT (f : Flags) (t : Table σ ι ν ε) (sep : GoString) (groupCount : Nat)
    (getWidth : Nat → Nat → Except Panic UInt16) : Talk Unit := do
  let itemN ← askLen
  writeLinesT sep (fun lineI => lineGroupsT f t itemN getWidth (indexH groupCount lineI) groupCount 0)
    (lineCountT itemN groupCount).toNat 0

/-- /repo/horizontal.go:9-67 `MergeRowsHorizontal`. -/
def mergeRowsHorizontalT (f : Flags) (t : Table σ ι ν ε) (maxWidthArg : Int) (sep : GoString)
    (compact : Bool) (fuel : Nat) : Talk Unit := do
  let margin := u16 sep.length
  let maxWidth := maxWidthOf maxWidthArg
  let groupCount ← Talk.ofExcept (initialGroupCount t maxWidth margin)
  if compact then
    let r ← compactLoopHT f t maxWidth margin groupCount fuel 0 []
    if r.1 > 0 then printHT f t sep (groupCount + r.1) (getWidthCompact r.2 t.columnCount)
    else printHT f t sep groupCount (getWidthTable t)
  else printHT f t sep groupCount (getWidthTable t)

/-! ## Vertical -/

/-- Innermost loop of `mergedRowsWidthV`, /repo/vertical.go:116-122, from item `itemIdx` on. -/
def maxCellWidthVT (f : Flags) (colI : Nat) (endItemIdx itemIdx : Int) (mcw : UInt16) : Talk UInt16 :=
  if itemIdx < endItemIdx then do
    let item ← askGet itemIdx
    let s ← Talk.ofExcept (cellAt item colI)
    let cw := visualWidth f s
    maxCellWidthVT f colI endItemIdx (itemIdx + 1) (if cw > mcw then cw else mcw)
  else return mcw
termination_by (endItemIdx - itemIdx).toNat

/-- /repo/vertical.go:94-128 `mergedRowsWidthV`; Go's nil result is `none`. -/
def mergedRowsWidthVT (f : Flags) (t : Table σ ι ν ε) (groupCount : Nat) : Talk (Option (List UInt16)) := do
  let itemN ← askLen
  let lineCount := lineCountT itemN groupCount
  if lineCount = 0 then .panic .divideByZero
  else if (groupCount : Int) > (itemN - 1).tdiv lineCount + 1 then return none
  else
    let rows ← (List.range groupCount).mapM fun (groupI : Nat) =>
      let endItemIdx := if ((groupI : Int) + 1) * lineCount > itemN then itemN
        else ((groupI : Int) + 1) * lineCount
      (List.range t.columnCount).mapM fun colI =>
        maxCellWidthVT f colI endItemIdx (groupI * lineCount) 0
    return some rows.flatten

/-- /repo/vertical.go:69-92 `compactCalcV`, the loop from `extra` on, for at most `fuel` rounds: with a list
that grows while it is measured it need not end. -/
def compactLoopVT (f : Flags) (t : Table σ ι ν ε) (maxWidth margin : UInt16) (groupCountInit : Nat) :
    (fuel : Nat) → (extra : Nat) → (cellWidth : List UInt16) → Talk (Nat × List UInt16)
  | 0, _, _ => .unfinished
  | fuel + 1, extra, cellWidth => do
    let groupCount := groupCountInit + extra + 1
    match ← mergedRowsWidthVT f t groupCount with
    | none => return (extra, cellWidth)
    | some cellWidthNew =>
      if compactTotal margin (UInt16.ofNat t.columnCount) groupCount cellWidthNew > maxWidth then
        return (extra, cellWidth)
      else compactLoopVT f t maxWidth margin groupCountInit fuel (extra + 1) cellWidthNew

/-- /repo/vertical.go:38-66 once the group count and `getWidth` are fixed. -/
def printVT (f : Flags) (t : Table σ ι ν ε) (sep : GoString) (groupCount : Nat)
    (getWidth : Nat → Nat → Except Panic UInt16) : Talk Unit := do
  let itemN ← askLen
  let lineCount := (lineCountT itemN groupCount).toNat
  writeLinesT sep (fun lineI => lineGroupsT f t itemN getWidth (indexV lineCount lineI) groupCount 0)
    lineCount 0

/-- /repo/vertical.go:9-67 `MergeRowsVertical`. -/
def mergeRowsVerticalT (f : Flags) (t : Table σ ι ν ε) (maxWidthArg : Int) (sep : GoString)
    (compact : Bool) (fuel : Nat) : Talk Unit := do
  let margin := u16 sep.length
  let maxWidth := maxWidthOf maxWidthArg
  let groupCount ← Talk.ofExcept (initialGroupCount t maxWidth margin)
  if compact then
    let r ← compactLoopVT f t maxWidth margin groupCount fuel 0 []
    if r.1 > 0 then printVT f t sep (groupCount + r.1) (getWidthCompact r.2 t.columnCount)
    else printVT f t sep groupCount (getWidthTable t)
  else printVT f t sep groupCount (getWidthTable t)

end GoTable
