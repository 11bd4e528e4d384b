import Verif.Model.Table
/-!
# /repo/horizontal.go and /repo/vertical.go

Both merge functions share everything but three expressions. They are still modelled separately,
function by function; what is textually identical in both files (rendering one item, the line loop with
its write) is written once, citing both.
-/

namespace GoTable

variable {σ ι ν ε : Type}

/-- /repo/table_iface.go:3-6 `type FormattedItemList`: user code, taken to be a fixed list (`Len` and
`Get` without side effects, `Len` not negative). `get` is defined on all integers, so that reading out
of range would be visible in the result. -/
structure Items where
  len : Nat
  get : Int → List GoString

/-- Run-time panics of the merge functions. -/
inductive Panic where
  /-- integer divide by zero -/
  | divideByZero
  /-- index out of range -/
  | index
  /-- `panic(err)` on a failed write -/
  | write
deriving DecidableEq, Repr

/-- What a merge call did: the byte strings handed to the writer, in order, and how it ended. -/
structure MergeRun where
  written : List GoString
  panic : Option Panic
deriving DecidableEq, Repr

/-- /repo/table.go:9 `innerSep`. -/
def innerSep : GoString := [0x20]
/-- /repo/table.go:10 `innerMargin = uint16(len(innerSep))`. -/
def innerMargin : UInt16 := UInt16.ofNat innerSep.length
/-- /repo/table.go:11 `MAX_WIDTH`. -/
def maxWidthConst : Int := 65535

/-- `item[colI]` with Go's bounds check. -/
def cellAt (item : List GoString) (colI : Nat) : Except Panic GoString :=
  match item[colI]? with
  | some s => .ok s
  | none => .error .index

/-- `cellWidth[i]` with Go's bounds check. -/
def widthAt (cellWidth : List UInt16) (i : Nat) : Except Panic UInt16 :=
  match cellWidth[i]? with
  | some w => .ok w
  | none => .error .index

/-- /repo/horizontal.go:16-22, /repo/vertical.go:16-22: clamp and convert the width argument. -/
def maxWidthOf (maxWidthArg : Int) : UInt16 :=
  u16 (if maxWidthArg > maxWidthConst then maxWidthConst else maxWidthArg)

/-- /repo/horizontal.go:16,22-25, /repo/vertical.go:16,22-25: the initial number of groups.
uint16 arithmetic; division by zero panics. -/
def initialGroupCount (t : Table σ ι ν ε) (maxWidth margin : UInt16) : Except Panic Nat :=
  let d := t.tableWidth margin + margin
  if d = 0 then .error .divideByZero
  else
    let groupCount := ((maxWidth + margin) / d).toNat
    .ok (if groupCount < 1 then 1 else groupCount)

/-- The two versions of `getWidth`, /repo/horizontal.go:26-28 and 33-35 (vertical.go the same):
from the table's column widths, or from the compact cell widths. -/
def getWidthTable (t : Table σ ι ν ε) (colI : Nat) (_groupI : Nat) : Except Panic UInt16 :=
  match t.columns[colI]? with
  | some col => .ok (t.columnWidth col.name)
  | none => .error .index

def getWidthCompact (cellWidth : List UInt16) (colN : Nat) (colI : Nat) (groupI : Nat) :
    Except Panic UInt16 :=
  widthAt cellWidth (groupI * colN + colI)

/-- The loop over the columns of one item, /repo/horizontal.go:49-59, /repo/vertical.go:49-59, from
column `colI` on. A nil alignment means AlignmentLeft. -/
def renderCells (f : Flags) (getWidth : Nat → Nat → Except Panic UInt16) (groupI : Nat)
    (item : List GoString) : List (Column σ ι ν ε) → (colI : Nat) → Except Panic (List GoString)
  | [], _ => .ok []
  | col :: cols, colI => do
    let al := match col.alignment with
      | none => alignmentLeft f
      | some al => al
    let str ← cellAt item colI
    let w ← getWidth colI groupI
    let rest ← renderCells f getWidth groupI item cols (colI + 1)
    return al str w :: rest

/-- The loop over the groups of one line, /repo/horizontal.go:41-61 and /repo/vertical.go:41-61, from
group `groupI` on, returning the elements appended to `line`. `index groupI` is the item index
(`lineI*groupCount + groupI`, horizontal.go:43, or `groupI*lineCount + lineI`, vertical.go:43). -/
def lineGroups (f : Flags) (t : Table σ ι ν ε) (items : Items)
    (getWidth : Nat → Nat → Except Panic UInt16) (index : Nat → Nat) (groupCount : Nat)
    (groupI : Nat) : Except Panic (List GoString) :=
  if groupI < groupCount then
    let itemIdx := index groupI
    if itemIdx ≥ items.len then .ok [[]]
    else do
      let cell ← renderCells f getWidth groupI (items.get itemIdx) t.columns 0
      let rest ← lineGroups f t items getWidth index groupCount (groupI + 1)
      return join innerSep cell :: rest
  else .ok []
termination_by groupCount - groupI

/-- The loop over the lines, /repo/horizontal.go:40-66, /repo/vertical.go:40-66, from line `lineI` on.
`Fprintln` makes one `Write` call with the line and a newline; `fails k` tells whether the writer's
k-th call (counting from 0) returns an error. -/
def writeLines (sep : GoString) (line : Nat → Except Panic (List GoString)) (fails : Nat → Bool)
    (lineCount : Nat) (lineI : Nat) : MergeRun :=
  if lineI < lineCount then
    match line lineI with
    | .error p => ⟨[], some p⟩
    | .ok parts =>
      let out := join sep parts ++ lit "\n"
      if fails lineI then ⟨[out], some .write⟩
      else
        let r := writeLines sep line fails lineCount (lineI + 1)
        ⟨out :: r.written, r.panic⟩
  else ⟨[], none⟩
termination_by lineCount - lineI

/-- `(itemN-1)/groupCount + 1` in Go's truncated division, /repo/horizontal.go:39, /repo/vertical.go:39
and 100. -/
def lineCountOf (itemN groupCount : Nat) : Int := ((itemN : Int) - 1).tdiv groupCount + 1

/-! ## Horizontal -/

/-- Innermost loop of `mergedRowsWidthH`, /repo/horizontal.go:100-106, from item `itemIdx` on. (With
`groupCount = 0` the Go loop would not advance, but then the enclosing loop runs zero times.) -/
def maxCellWidthH (f : Flags) (items : Items) (colI groupCount : Nat) (itemIdx : Nat) (mw : UInt16) :
    Except Panic UInt16 :=
  if _h : itemIdx < items.len ∧ 0 < groupCount then
    match cellAt (items.get itemIdx) colI with
    | .error p => .error p
    | .ok s =>
      let w := visualWidth f s
      maxCellWidthH f items colI groupCount (itemIdx + groupCount) (if w > mw then w else mw)
  else .ok mw
termination_by items.len - itemIdx

/-- /repo/horizontal.go:91-111 `mergedRowsWidthH`. -/
def mergedRowsWidthH (f : Flags) (t : Table σ ι ν ε) (items : Items) (groupCount : Nat) :
    Except Panic (List UInt16) := do
  let rows ← (List.range groupCount).mapM fun groupI =>
    (List.range t.columnCount).mapM fun colI => maxCellWidthH f items colI groupCount groupI 0
  return rows.flatten

/-- The sum of /repo/horizontal.go:79-82 and /repo/vertical.go:82-85, in uint16 arithmetic. -/
def compactTotal (margin colN : UInt16) (groupCount : Nat) (cellWidth : List UInt16) : UInt16 :=
  cellWidth.foldl (· + ·)
    (margin * (UInt16.ofNat groupCount - 1) + innerMargin * (colN - 1) * UInt16.ofNat groupCount)

/-- The loop of `compactCalcH`, /repo/horizontal.go:76-88. `none` means that the loop has not ended
within `fuel` iterations. -/
def compactLoopH (f : Flags) (t : Table σ ι ν ε) (items : Items) (maxWidth margin : UInt16)
    (groupCountInit : Nat) :
    (fuel : Nat) → (extra : Nat) → (cellWidth : List UInt16) → Option (Except Panic (Nat × List UInt16))
  | 0, _, _ => none
  | fuel + 1, extra, cellWidth =>
    let groupCount := groupCountInit + extra + 1
    match mergedRowsWidthH f t items groupCount with
    | .error p => some (.error p)
    | .ok cellWidthNew =>
      if compactTotal margin (UInt16.ofNat t.columnCount) groupCount cellWidthNew > maxWidth then
        some (.ok (extra, cellWidth))
      else compactLoopH f t items maxWidth margin groupCountInit fuel (extra + 1) cellWidthNew

/-- /repo/horizontal.go:69-89 `compactCalcH`. -/
def compactCalcH (f : Flags) (t : Table σ ι ν ε) (items : Items) (maxWidth margin : UInt16)
    (groupCountInit fuel : Nat) : Option (Except Panic (Nat × List UInt16)) :=
  compactLoopH f t items maxWidth margin groupCountInit fuel 0 []

/-- Item index of /repo/horizontal.go:43. -/
def indexH (groupCount lineI groupI : Nat) : Nat := lineI * groupCount + groupI

/-- /repo/horizontal.go:38-66 once the group count and `getWidth` are fixed. -/
def printH (f : Flags) (t : Table σ ι ν ε) (items : Items) (sep : GoString) (fails : Nat → Bool)
    (groupCount : Nat) (getWidth : Nat → Nat → Except Panic UInt16) : MergeRun :=
  let lineCount := (lineCountOf items.len groupCount).toNat
  writeLines sep (fun lineI => lineGroups f t items getWidth (indexH groupCount lineI) groupCount 0)
    fails lineCount 0

/-- /repo/horizontal.go:9-67 `MergeRowsHorizontal`. `none`: still searching after `fuel` rounds of
`compactCalcH`. -/
def mergeRowsHorizontal (f : Flags) (t : Table σ ι ν ε) (items : Items) (maxWidthArg : Int)
    (sep : GoString) (compact : Bool) (fails : Nat → Bool) (fuel : Nat) : Option MergeRun :=
  let margin := u16 sep.length
  let maxWidth := maxWidthOf maxWidthArg
  match initialGroupCount t maxWidth margin with
  | .error p => some ⟨[], some p⟩
  | .ok groupCount =>
    if compact then
      match compactCalcH f t items maxWidth margin groupCount fuel with
      | none => none
      | some (.error p) => some ⟨[], some p⟩
      | some (.ok (extra, cellWidth)) =>
        if extra > 0 then
          some (printH f t items sep fails (groupCount + extra)
            (getWidthCompact cellWidth t.columnCount))
        else some (printH f t items sep fails groupCount (getWidthTable t))
    else some (printH f t items sep fails groupCount (getWidthTable t))

/-! ## Vertical -/

/-- Innermost loop of `mergedRowsWidthV`, /repo/vertical.go:116-122, from item `itemIdx` on. -/
def maxCellWidthV (f : Flags) (items : Items) (colI endItemIdx : Nat) (itemIdx : Nat) (mcw : UInt16) :
    Except Panic UInt16 :=
  if itemIdx < endItemIdx then
    match cellAt (items.get itemIdx) colI with
    | .error p => .error p
    | .ok s =>
      let cw := visualWidth f s
      maxCellWidthV f items colI endItemIdx (itemIdx + 1) (if cw > mcw then cw else mcw)
  else .ok mcw
termination_by endItemIdx - itemIdx

/-- /repo/vertical.go:94-128 `mergedRowsWidthV`; Go's nil result is `none`. Division by a zero
`lineCount` panics (it happens for no items and `groupCount = 1`, which the caller never passes); otherwise `lineCount` is positive. -/
def mergedRowsWidthV (f : Flags) (t : Table σ ι ν ε) (items : Items) (groupCount : Nat) :
    Except Panic (Option (List UInt16)) := do
  let lineCount := lineCountOf items.len groupCount
  if lineCount = 0 then .error .divideByZero
  else if (groupCount : Int) > ((items.len : Int) - 1).tdiv lineCount + 1 then return none
  else
    let lines := lineCount.toNat
    let rows ← (List.range groupCount).mapM fun groupI =>
      let endItemIdx := if (groupI + 1) * lines > items.len then items.len
        else (groupI + 1) * lines
      (List.range t.columnCount).mapM fun colI =>
        maxCellWidthV f items colI endItemIdx (groupI * lines) 0
    return some rows.flatten

/-- If `mergedRowsWidthV` does not give up then there are at least as many items as groups. This makes
`compactCalcV` terminate. -/
theorem mergedRowsWidthV_some_le (f : Flags) (t : Table σ ι ν ε) (items : Items) (groupCount : Nat)
    (cw : List UInt16) (h2 : 2 ≤ groupCount)
    (h : mergedRowsWidthV f t items groupCount = .ok (some cw)) : groupCount ≤ items.len := by
  unfold mergedRowsWidthV at h
  simp only [] at h
  split at h
  · simp at h
  · rename_i hl
    split at h
    · simp [pure, Except.pure] at h
    · rename_i hgc
      refine Decidable.byContradiction fun hlt => ?_
      have hn : items.len < groupCount := by omega
      have : lineCountOf items.len groupCount = 1 := by
        unfold lineCountOf
        rcases Nat.eq_zero_or_pos items.len with h0 | h0
        · simp only [h0]
          rw [show ((0 : Nat) : Int) - 1 = -1 by simp, Int.neg_tdiv, Int.tdiv_eq_ediv_of_nonneg (by omega)]
          rw [Int.ediv_eq_zero_of_lt (by omega) (by omega)]; simp
        · rw [Int.tdiv_eq_ediv_of_nonneg (by omega), Int.ediv_eq_zero_of_lt (by omega) (by omega)]; simp
      rw [this] at hgc
      simp only [Int.tdiv_one] at hgc
      omega

/-- /repo/vertical.go:69-92 `compactCalcV`, the loop from `extra` on. Unlike its horizontal
counterpart it always ends. -/
def compactLoopV (f : Flags) (t : Table σ ι ν ε) (items : Items) (maxWidth margin : UInt16)
    (groupCountInit : Nat) (hinit : 1 ≤ groupCountInit) (extra : Nat) (cellWidth : List UInt16) :
    Except Panic (Nat × List UInt16) :=
  let groupCount := groupCountInit + extra + 1
  match _hm : mergedRowsWidthV f t items groupCount with
  | .error p => .error p
  | .ok none => .ok (extra, cellWidth)
  | .ok (some cellWidthNew) =>
    if compactTotal margin (UInt16.ofNat t.columnCount) groupCount cellWidthNew > maxWidth then
      .ok (extra, cellWidth)
    else compactLoopV f t items maxWidth margin groupCountInit hinit (extra + 1) cellWidthNew
termination_by items.len - extra
decreasing_by
  have := mergedRowsWidthV_some_le f t items _ _ (by omega) _hm
  omega

/-- /repo/vertical.go:69-92 `compactCalcV`. -/
def compactCalcV (f : Flags) (t : Table σ ι ν ε) (items : Items) (maxWidth margin : UInt16)
    (groupCountInit : Nat) (hinit : 1 ≤ groupCountInit) : Except Panic (Nat × List UInt16) :=
  compactLoopV f t items maxWidth margin groupCountInit hinit 0 []

/-- Item index of /repo/vertical.go:43. -/
def indexV (lineCount lineI groupI : Nat) : Nat := groupI * lineCount + lineI

/-- /repo/vertical.go:38-66 once the group count and `getWidth` are fixed. -/
def printV (f : Flags) (t : Table σ ι ν ε) (items : Items) (sep : GoString) (fails : Nat → Bool)
    (groupCount : Nat) (getWidth : Nat → Nat → Except Panic UInt16) : MergeRun :=
  let lineCount := (lineCountOf items.len groupCount).toNat
  writeLines sep (fun lineI => lineGroups f t items getWidth (indexV lineCount lineI) groupCount 0)
    fails lineCount 0

theorem initialGroupCount_pos (t : Table σ ι ν ε) (maxWidth margin : UInt16) (g : Nat)
    (h : initialGroupCount t maxWidth margin = .ok g) : 1 ≤ g := by
  unfold initialGroupCount at h
  simp only [] at h
  split at h
  · simp at h
  · simp only [Except.ok.injEq] at h
    split at h <;> omega

/-- /repo/vertical.go:9-67 `MergeRowsVertical`. -/
def mergeRowsVertical (f : Flags) (t : Table σ ι ν ε) (items : Items) (maxWidthArg : Int)
    (sep : GoString) (compact : Bool) (fails : Nat → Bool) : MergeRun :=
  let margin := u16 sep.length
  let maxWidth := maxWidthOf maxWidthArg
  match hg : initialGroupCount t maxWidth margin with
  | .error p => ⟨[], some p⟩
  | .ok groupCount =>
    if compact then
      match compactCalcV f t items maxWidth margin groupCount (initialGroupCount_pos t _ _ _ hg) with
      | .error p => ⟨[], some p⟩
      | .ok (extra, cellWidth) =>
        if extra > 0 then
          printV f t items sep fails (groupCount + extra) (getWidthCompact cellWidth t.columnCount)
        else printV f t items sep fails groupCount (getWidthTable t)
    else printV f t items sep fails groupCount (getWidthTable t)

end GoTable
