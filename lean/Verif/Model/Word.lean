import Verif.Model.Talk
/-!
# The merges with integers of the machine

In `Model/Merge.lean`, `Model/Talk.lean` and `Model/Live.lean` Go's `int` is an unbounded integer. Here both merges of
`Model/Talk.lean` are modelled once more with `int` as it is on a platform, a number of `w` bits: sums, products and
differences wrap around. `w` is 64 or 32; nothing here depends on which. The columns of the table are still counted by
natural numbers: their number is the length of a slice.

A counter that wraps around can keep a loop from ending. A loop whose counter has not ended it after 2^w rounds has seen
the same counter twice and never ends, so each `for` loop runs for at most `rounds w` rounds; the search for more groups
takes fuel, as in the other models.
-/

namespace GoTable

variable {σ ι ν ε : Type} {w : Nat}

/-! ## Integers -/

/-- Go's `int` on a platform where it has `w` bits, in two's complement. -/
@[ext] structure GoInt (w : Nat) where
  bits : BitVec w
deriving DecidableEq

namespace GoInt

/-- Its value. -/
def toInt (a : GoInt w) : Int := a.bits.toInt
/-- The number with the last `w` bits of `n`. -/
def ofInt (n : Int) : GoInt w := ⟨BitVec.ofInt w n⟩
/-- A conversion from an unsigned integer: the last `w` bits. -/
def ofNat (n : Nat) : GoInt w := ⟨BitVec.ofNat w n⟩

instance {n : Nat} : OfNat (GoInt w) n := ⟨ofNat n⟩
instance : Add (GoInt w) := ⟨fun a b => ⟨a.bits + b.bits⟩⟩
instance : Sub (GoInt w) := ⟨fun a b => ⟨a.bits - b.bits⟩⟩
instance : Mul (GoInt w) := ⟨fun a b => ⟨a.bits * b.bits⟩⟩
/-- The truncated quotient of two signed numbers. -/
instance : Div (GoInt w) := ⟨fun a b => ⟨a.bits.sdiv b.bits⟩⟩
instance : LT (GoInt w) := ⟨fun a b => a.toInt < b.toInt⟩
instance : LE (GoInt w) := ⟨fun a b => a.toInt ≤ b.toInt⟩
instance (a b : GoInt w) : Decidable (a < b) := inferInstanceAs (Decidable (a.toInt < b.toInt))
instance (a b : GoInt w) : Decidable (a ≤ b) := inferInstanceAs (Decidable (a.toInt ≤ b.toInt))

end GoInt

/-- As many rounds as a counter has values. -/
def rounds (w : Nat) : Nat := 2 ^ w

/-! ## Calls and loops -/

/-- One call of `items.Len()`; the answer is an `int`. -/
def askLenW : Talk (GoInt w) := .len fun n => .ret (GoInt.ofInt n)
/-- One call of `items.Get(i)`. -/
def askGetW (i : GoInt w) : Talk (List GoString) := .get i.toInt .ret

/-- Go's `a / b`: truncated, wrapping around for the quotient of the smallest number by -1, a panic for 0. -/
def quoW (a b : GoInt w) : Talk (GoInt w) := if b = 0 then .panic .divideByZero else .ret (a / b)

/-- `(itemN-1)/groupCount + 1`, /repo/horizontal.go:39, /repo/vertical.go:39 and 100. -/
def lineCountW (itemN groupCount : GoInt w) : Talk (GoInt w) := do
  let q ← quoW (itemN - 1) groupCount
  return q + 1

/-- The second version of `getWidth`, /repo/horizontal.go:33-35, /repo/vertical.go:33-35: `cellWidth[groupI*colN+colI]`. -/
def getWidthCompactW (cellWidth : List UInt16) (colN : Nat) (colI : Nat) (groupI : GoInt w) : Except Panic UInt16 :=
  let i := groupI * GoInt.ofNat colN + GoInt.ofNat colI
  if i < 0 then .error .index else widthAt cellWidth i.toInt.toNat

/-- The first version of `getWidth`, /repo/horizontal.go:26-28, /repo/vertical.go:26-28. -/
def getWidthTableW (t : Table σ ι ν ε) (colI : Nat) (_groupI : GoInt w) : Except Panic UInt16 := getWidthTable t colI 0

/-- The loop over the groups of one line, /repo/horizontal.go:42-61 and /repo/vertical.go:42-61, from group `groupI` on. -/
def lineGroupsW (f : Flags) (t : Table σ ι ν ε) (itemN : GoInt w) (getWidth : Nat → GoInt w → Except Panic UInt16)
    (index : GoInt w → GoInt w) (groupCount : GoInt w) : Nat → (groupI : GoInt w) → Talk (List GoString)
  | 0, _ => .unfinished
  | fuel + 1, groupI =>
    if groupI < groupCount then
      let itemIdx := index groupI
      if itemIdx ≥ itemN then return [[]]
      else do
        let item ← askGetW itemIdx
        let cell ← Talk.ofExcept (renderCells f (fun colI _ => getWidth colI groupI) 0 item t.columns 0)
        let rest ← lineGroupsW f t itemN getWidth index groupCount fuel (groupI + 1)
        return join innerSep cell :: rest
    else return []

/-- The loop over the lines, /repo/horizontal.go:40-66, /repo/vertical.go:40-66, from line `lineI` on. -/
def writeLinesW (sep : GoString) (line : GoInt w → Talk (List GoString)) (lineCount : GoInt w) :
    Nat → (lineI : GoInt w) → Talk Unit
  | 0, _ => .unfinished
  | fuel + 1, lineI =>
    if lineI < lineCount then do
      let parts ← line lineI
      let failed ← askWrite (join sep parts ++ lit "\n")
      if failed then .panic .write else writeLinesW sep line lineCount fuel (lineI + 1)
    else return ()

/-- The loop over the groups of `mergedRowsWidthH` and `mergedRowsWidthV`, /repo/horizontal.go:97-109,
/repo/vertical.go:110-126, from group `groupI` on; `body` gives the widths of a group. -/
def measureGroupsW (body : GoInt w → Talk (List UInt16)) (groupCount : GoInt w) :
    Nat → (groupI : GoInt w) → Talk (List UInt16)
  | 0, _ => .unfinished
  | fuel + 1, groupI =>
    if groupI < groupCount then do
      let ws ← body groupI
      let rest ← measureGroupsW body groupCount fuel (groupI + 1)
      return ws ++ rest
    else return []

/-- Innermost loop of `mergedRowsWidthH` and `mergedRowsWidthV`, /repo/horizontal.go:101-106, /repo/vertical.go:117-122:
from item `itemIdx` on, `stride` further each time, while it is below `stop`. -/
def maxCellWidthW (f : Flags) (colI : Nat) (stop stride : GoInt w) : Nat → (itemIdx : GoInt w) → (mw : UInt16) → Talk UInt16
  | 0, _, _ => .unfinished
  | fuel + 1, itemIdx, mw =>
    if itemIdx < stop then do
      let item ← askGetW itemIdx
      let s ← Talk.ofExcept (cellAt item colI)
      let w := visualWidth f s
      maxCellWidthW f colI stop stride fuel (itemIdx + stride) (if w > mw then w else mw)
    else return mw

/-- The total of /repo/horizontal.go:79-82 and /repo/vertical.go:82-85, with `uint16(groupCount)`. -/
def compactTotalW (margin colN : UInt16) (groupCount : GoInt w) (cellWidth : List UInt16) : UInt16 :=
  cellWidth.foldl (· + ·)
    (margin * (u16 groupCount.toInt - 1) + innerMargin * (colN - 1) * u16 groupCount.toInt)

/-! ## Horizontal -/

/-- /repo/horizontal.go:91-111 `mergedRowsWidthH`. -/
def mergedRowsWidthHW (f : Flags) (t : Table σ ι ν ε) (groupCount : GoInt w) : Talk (List UInt16) := do
  let itemN : GoInt w ← askLenW
  measureGroupsW (fun groupI => (List.range t.columnCount).mapM fun colI =>
    maxCellWidthW f colI itemN groupCount (rounds w) groupI 0) groupCount (rounds w) 0

/-- /repo/horizontal.go:69-89 `compactCalcH`, the loop from `extra` on, for at most `fuel` rounds. -/
def compactLoopHW (f : Flags) (t : Table σ ι ν ε) (maxWidth margin : UInt16) (groupCountInit : GoInt w) :
    (fuel : Nat) → (extra : GoInt w) → (cellWidth : List UInt16) → Talk (GoInt w × List UInt16)
  | 0, _, _ => .unfinished
  | fuel + 1, extra, cellWidth => do
    let groupCount := groupCountInit + extra + 1
    let cellWidthNew ← mergedRowsWidthHW f t groupCount
    if compactTotalW margin (UInt16.ofNat t.columnCount) groupCount cellWidthNew > maxWidth then
      return (extra, cellWidth)
    else compactLoopHW f t maxWidth margin groupCountInit fuel (extra + 1) cellWidthNew

/-- /repo/horizontal.go:38-66 once the group count and `getWidth` are fixed. -/
def printHW (f : Flags) (t : Table σ ι ν ε) (sep : GoString) (groupCount : GoInt w)
    (getWidth : Nat → GoInt w → Except Panic UInt16) : Talk Unit := do
  let itemN : GoInt w ← askLenW
  let lineCount ← lineCountW itemN groupCount
  writeLinesW sep (fun lineI =>
    lineGroupsW f t itemN getWidth (fun groupI => lineI * groupCount + groupI) groupCount (rounds w) 0) lineCount (rounds w) 0

/-- /repo/horizontal.go:9-67 `MergeRowsHorizontal`. -/
def mergeRowsHorizontalW (f : Flags) (t : Table σ ι ν ε) (maxWidthArg : GoInt w) (sep : GoString) (compact : Bool)
    (fuel : Nat) : Talk Unit := do
  let margin := u16 sep.length
  let maxWidth := maxWidthOf maxWidthArg.toInt
  let groupCount : GoInt w := GoInt.ofNat (← Talk.ofExcept (initialGroupCount t maxWidth margin))
  if compact then
    let r ← compactLoopHW f t maxWidth margin groupCount fuel 0 []
    if r.1 > 0 then printHW f t sep (groupCount + r.1) (getWidthCompactW r.2 t.columnCount)
    else printHW f t sep groupCount (getWidthTableW t)
  else printHW f t sep groupCount (getWidthTableW t)

/-! ## Vertical -/

/-- /repo/vertical.go:94-128 `mergedRowsWidthV`; Go's nil result is `none`. -/
def mergedRowsWidthVW (f : Flags) (t : Table σ ι ν ε) (groupCount : GoInt w) : Talk (Option (List UInt16)) := do
  let itemN : GoInt w ← askLenW
  let lineCount ← lineCountW itemN groupCount
  let q ← quoW (itemN - 1) lineCount
  if groupCount > q + 1 then return none
  else
    let ws ← measureGroupsW (fun groupI =>
      let endItemIdx := if (groupI + 1) * lineCount > itemN then itemN else (groupI + 1) * lineCount
      (List.range t.columnCount).mapM fun colI =>
        maxCellWidthW f colI endItemIdx 1 (rounds w) (groupI * lineCount) 0) groupCount (rounds w) 0
    return some ws

/-- /repo/vertical.go:69-92 `compactCalcV`, the loop from `extra` on, for at most `fuel` rounds. -/
def compactLoopVW (f : Flags) (t : Table σ ι ν ε) (maxWidth margin : UInt16) (groupCountInit : GoInt w) :
    (fuel : Nat) → (extra : GoInt w) → (cellWidth : List UInt16) → Talk (GoInt w × List UInt16)
  | 0, _, _ => .unfinished
  | fuel + 1, extra, cellWidth => do
    let groupCount := groupCountInit + extra + 1
    match ← mergedRowsWidthVW f t groupCount with
    | none => return (extra, cellWidth)
    | some cellWidthNew =>
      if compactTotalW margin (UInt16.ofNat t.columnCount) groupCount cellWidthNew > maxWidth then
        return (extra, cellWidth)
      else compactLoopVW f t maxWidth margin groupCountInit fuel (extra + 1) cellWidthNew

/-- /repo/vertical.go:38-66 once the group count and `getWidth` are fixed. -/
def printVW (f : Flags) (t : Table σ ι ν ε) (sep : GoString) (groupCount : GoInt w)
    (getWidth : Nat → GoInt w → Except Panic UInt16) : Talk Unit := do
  let itemN : GoInt w ← askLenW
  let lineCount ← lineCountW itemN groupCount
  writeLinesW sep (fun lineI =>
    lineGroupsW f t itemN getWidth (fun groupI => groupI * lineCount + lineI) groupCount (rounds w) 0) lineCount (rounds w) 0

/-- /repo/vertical.go:9-67 `MergeRowsVertical`. -/
def mergeRowsVerticalW (f : Flags) (t : Table σ ι ν ε) (maxWidthArg : GoInt w) (sep : GoString) (compact : Bool)
    (fuel : Nat) : Talk Unit := do
  let margin := u16 sep.length
  let maxWidth := maxWidthOf maxWidthArg.toInt
  let groupCount : GoInt w := GoInt.ofNat (← Talk.ofExcept (initialGroupCount t maxWidth margin))
  if compact then
    let r ← compactLoopVW f t maxWidth margin groupCount fuel 0 []
    if r.1 > 0 then printVW f t sep (groupCount + r.1) (getWidthCompactW r.2 t.columnCount)
    else printVW f t sep groupCount (getWidthTableW t)
  else printVW f t sep groupCount (getWidthTableW t)

end GoTable
