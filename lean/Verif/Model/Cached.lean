import Verif.Model.Merge
/-!
# The exported functions as they reach the width cache

In the other model files `visualWidth` is a function of the string alone. In /repo it reads and writes
one package-level cache (/repo/width.go:19), shared by all tables. Here every function that measures a
text is modelled a second time, as a program that asks for widths one at a time; user code (getters and
alignment functions) may ask for widths too, by calling the package. `Prog.runCached` answers from the
cache, with arbitrary evictions; `Prog.runPure` answers with the width computed from scratch.
-/

namespace GoTable

/-- A computation that measures texts on the way: finished, or about to call `visualWidth(s)` and to go
on with what it returns. -/
inductive Prog (α : Type) where
  | ret (a : α)
  | measure (s : GoString) (k : UInt16 → Prog α)

/-- Sequencing. -/
def Prog.bind {α β : Type} : Prog α → (α → Prog β) → Prog β
  | .ret a, g => g a
  | .measure s k, g => .measure s fun w => (k w).bind g

instance : Monad Prog where
  pure := .ret
  bind := .bind

/-- One call of `visualWidth`. -/
def visualWidthP (s : GoString) : Prog UInt16 := .measure s .ret

/-- Every width is computed from scratch. -/
def Prog.runPure {α : Type} (f : Flags) : Prog α → α
  | .ret a => a
  | .measure s k => (k (visualWidth f s)).runPure f

/-- Every width goes through the cache as in /repo/width.go:23-37. `ev n` are the evictions during the
n-th call. Returns the result, the number of calls so far and the cache afterwards. -/
def Prog.runCached {α : Type} (f : Flags) (ev : Nat → Evict × Evict) :
    Prog α → (calls : Nat) → Cache → α × Nat × Cache
  | .ret a, n, c => (a, n, c)
  | .measure s k, n, c =>
    let r := visualWidthCached f (ev n).1 (ev n).2 c s
    (k r.1).runCached f ev (n + 1) r.2

/-! ## /repo/alignment.go -/

/-- /repo/alignment.go:7; user-defined alignments may measure texts too. -/
abbrev AlignmentP := GoString → UInt16 → Prog GoString

/-- /repo/alignment.go:9-15 `AlignmentLeft`. -/
def alignmentLeftP : AlignmentP := fun str width => do
  let strWidth ← visualWidthP str
  if strWidth ≥ width then return str
  else return str ++ spaces (width - strWidth).toNat

/-- /repo/alignment.go:17-23 `AlignmentRight`. -/
def alignmentRightP : AlignmentP := fun str width => do
  let strWidth ← visualWidthP str
  if strWidth ≥ width then return str
  else return spaces (width - strWidth).toNat ++ str

/-- /repo/alignment.go:25-34 `AlignmentCenter`. -/
def alignmentCenterP : AlignmentP := fun str width => do
  let strWidth ← visualWidthP str
  if strWidth ≥ width then return str
  else
    let n : Int := (width - strWidth).toNat
    let left := (n - 1).tdiv 2 + 1
    let right := n - left
    return spaces left.toNat ++ str ++ spaces right.toNat

/-! ## /repo/table.go -/

/-- /repo/table_iface.go:8-12 `type Getter`; its methods may measure texts. -/
structure GetterP (σ ι ν ε : Type) where
  value : ι → σ → Prog (Except ε ν × σ)
  valueString : GoString → ι → σ → Prog (Except ε GoString × σ)
  format : ι → ν → σ → Prog (Except ε GoString × σ)

/-- /repo/table.go:14-22 `type Column`. -/
structure ColumnP (σ ι ν ε : Type) where
  getter : GetterP σ ι ν ε
  alignment : Option AlignmentP
  name : GoString
  title : GoString
  shortTitle : GoString

/-- /repo/table.go:43-47 `type Table`. -/
structure TableP (σ ι ν ε : Type) where
  columns : List (ColumnP σ ι ν ε)
  columnWidth : WidthMap

variable {σ ι ν ε : Type}

/-- The loop of `FormatItemBasic`, /repo/table.go:82-91. -/
def formatItemBasicLoopP (item : ι) (sep : GoString) :
    List (ColumnP σ ι ν ε) → (index : Nat) → (str : GoString) → σ → Prog (Except ε GoString × σ)
  | [], _, str, st => return (.ok str, st)
  | col :: cols, index, str, st => do
    match ← col.getter.valueString col.name item st with
    | (.error e, st) => return (.error e, st)
    | (.ok colStr, st) =>
      let str := if index > 0 then str ++ sep else str
      formatItemBasicLoopP item sep cols (index + 1) (str ++ colStr) st

/-- /repo/table.go:80-93 `FormatItemBasic`. -/
def TableP.formatItemBasic (t : TableP σ ι ν ε) (item : ι) (sep : GoString) (st : σ) :
    Prog (Except ε GoString × σ) :=
  formatItemBasicLoopP item sep t.columns 0 [] st

/-- The loop of `FormatItem`, /repo/table.go:98-116. -/
def formatItemLoopP (item : ι) :
    List (ColumnP σ ι ν ε) → (formatted : List GoString) → WidthMap → σ →
      Prog (Except ε (List GoString) × WidthMap × σ)
  | [], formatted, cw, st => return (.ok formatted, cw, st)
  | col :: cols, formatted, cw, st => do
    match ← col.getter.value item st with
    | (.error e, st) => return (.error e, cw, st)
    | (.ok value, st) =>
      match ← col.getter.format item value st with
      | (.error e, st) => return (.error e, cw, st)
      | (.ok valueFormatted, st) =>
        let width ← visualWidthP valueFormatted
        let cw := if width > cw col.name then WidthMap.set cw col.name width else cw
        formatItemLoopP item cols (formatted ++ [valueFormatted]) cw st

/-- /repo/table.go:95-118 `FormatItem`. -/
def TableP.formatItem (t : TableP σ ι ν ε) (item : ι) (st : σ) :
    Prog (Except ε (List GoString) × TableP σ ι ν ε × σ) := do
  let r ← formatItemLoopP item t.columns [] t.columnWidth st
  return (r.1, { t with columnWidth := r.2.1 }, r.2.2)

/-- The in-place loop of `AlignFormattedItem`, /repo/table.go:124-132. `none` is a panic. -/
def alignLoopP (cw : WidthMap) (s : Slice) :
    List (ColumnP σ ι ν ε) → (i : Nat) → Memory → Prog (Option Memory)
  | [], _, m => return some m
  | col :: cols, i, m =>
    match col.alignment with
    | none => alignLoopP cw s cols (i + 1) m
    | some al =>
      match s.get? m i with
      | none => return none
      | some x => do
        let y ← al x (cw col.name)
        match s.set? m i y with
        | none => return none
        | some m => alignLoopP cw s cols (i + 1) m

/-- /repo/table.go:120-134 `AlignFormattedItem`. -/
def TableP.alignFormattedItem (t : TableP σ ι ν ε) (m : Memory) (s : Slice) :
    Prog (Option (Except (Nat × Nat) Slice × Memory)) :=
  if s.len ≠ t.columns.length then return some (.error (s.len, t.columns.length), m)
  else do
    match ← alignLoopP t.columnWidth s t.columns 0 m with
    | none => return none
    | some m => return some (.ok s, m)

/-- /repo/table.go:136-150 `padColumnHeader`. -/
def TableP.padColumnHeader (t : TableP σ ι ν ε) (col : ColumnP σ ι ν ε) : Prog GoString :=
  let width := t.columnWidth col.name
  let value := col.title
  if width = 0 then return value
  else
    let value :=
      if value.length > width.toNat then
        if col.shortTitle.length > width.toNat then [] else col.shortTitle
      else value
    alignmentCenterP value width

/-- The loop of `FormatHeader`, /repo/table.go:154-156. -/
def TableP.headerLoop (t : TableP σ ι ν ε) (sep : GoString) :
    List (ColumnP σ ι ν ε) → (str : GoString) → Prog GoString
  | [], str => return str
  | col :: cols, str => do
    let h ← t.padColumnHeader col
    t.headerLoop sep cols (str ++ (h ++ sep))

/-- /repo/table.go:152-159 `FormatHeader`. -/
def TableP.formatHeader (t : TableP σ ι ν ε) (sep : GoString) : Prog GoString := do
  let str ← t.headerLoop sep t.columns []
  return str ++ lit "\n"

/-- /repo/table.go:161-167 `TableWidth`. -/
def TableP.tableWidth (t : TableP σ ι ν ε) (margin : UInt16) : UInt16 :=
  t.columns.foldl (fun width col => width + t.columnWidth col.name)
    ((UInt16.ofNat t.columns.length - 1) * margin)

/-! ## /repo/horizontal.go and /repo/vertical.go -/

/-- A program that may panic. -/
abbrev ProgP (α : Type) := ExceptT Panic Prog α

/-- A computation without measurements. -/
def ProgP.ofExcept {α : Type} (x : Except Panic α) : ProgP α := ExceptT.mk (.ret x)

/-- A computation that cannot panic. -/
def ProgP.ofProg {α : Type} (x : Prog α) : ProgP α := ExceptT.mk (x.bind fun a => .ret (.ok a))

/-- /repo/horizontal.go:16,22-25, /repo/vertical.go:16,22-25. -/
def TableP.initialGroupCount (t : TableP σ ι ν ε) (maxWidth margin : UInt16) : Except Panic Nat :=
  let d := t.tableWidth margin + margin
  if d = 0 then .error .divideByZero
  else
    let groupCount := ((maxWidth + margin) / d).toNat
    .ok (if groupCount < 1 then 1 else groupCount)

/-- /repo/horizontal.go:26-28, /repo/vertical.go:26-28. -/
def TableP.getWidth (t : TableP σ ι ν ε) (colI : Nat) (_groupI : Nat) : Except Panic UInt16 :=
  match t.columns[colI]? with
  | some col => .ok (t.columnWidth col.name)
  | none => .error .index

/-- /repo/horizontal.go:49-59, /repo/vertical.go:49-59. -/
def renderCellsP (getWidth : Nat → Nat → Except Panic UInt16) (groupI : Nat)
    (item : List GoString) : List (ColumnP σ ι ν ε) → (colI : Nat) → ProgP (List GoString)
  | [], _ => return []
  | col :: cols, colI => do
    let al := match col.alignment with
      | none => alignmentLeftP
      | some al => al
    let str ← ProgP.ofExcept (cellAt item colI)
    let w ← ProgP.ofExcept (getWidth colI groupI)
    let x ← ProgP.ofProg (al str w)
    let rest ← renderCellsP getWidth groupI item cols (colI + 1)
    return x :: rest

/-- /repo/horizontal.go:41-61, /repo/vertical.go:41-61. -/
def lineGroupsP (t : TableP σ ι ν ε) (items : Items)
    (getWidth : Nat → Nat → Except Panic UInt16) (index : Nat → Nat) (groupCount : Nat)
    (groupI : Nat) : ProgP (List GoString) :=
  if groupI < groupCount then
    let itemIdx := index groupI
    if itemIdx ≥ items.len then return [[]]
    else do
      let cell ← renderCellsP getWidth groupI (items.get itemIdx) t.columns 0
      let rest ← lineGroupsP t items getWidth index groupCount (groupI + 1)
      return join innerSep cell :: rest
  else return []
termination_by groupCount - groupI

/-- /repo/horizontal.go:40-66, /repo/vertical.go:40-66. -/
def writeLinesP (sep : GoString) (line : Nat → ProgP (List GoString)) (fails : Nat → Bool)
    (lineCount : Nat) (lineI : Nat) : Prog MergeRun :=
  if lineI < lineCount then do
    match ← (line lineI).run with
    | .error p => return ⟨[], some p⟩
    | .ok parts =>
      let out := join sep parts ++ lit "\n"
      if fails lineI then return ⟨[out], some .write⟩
      else
        let r ← writeLinesP sep line fails lineCount (lineI + 1)
        return ⟨out :: r.written, r.panic⟩
  else return ⟨[], none⟩
termination_by lineCount - lineI

/-- /repo/horizontal.go:100-106. -/
def maxCellWidthHP (items : Items) (colI groupCount : Nat) (itemIdx : Nat) (mw : UInt16) : ProgP UInt16 :=
  if _h : itemIdx < items.len ∧ 0 < groupCount then do
    let s ← ProgP.ofExcept (cellAt (items.get itemIdx) colI)
    let w ← ProgP.ofProg (visualWidthP s)
    maxCellWidthHP items colI groupCount (itemIdx + groupCount) (if w > mw then w else mw)
  else return mw
termination_by items.len - itemIdx

/-- /repo/horizontal.go:91-111 `mergedRowsWidthH`. -/
def mergedRowsWidthHP (t : TableP σ ι ν ε) (items : Items) (groupCount : Nat) : ProgP (List UInt16) := do
  let rows ← (List.range groupCount).mapM fun groupI =>
    (List.range t.columns.length).mapM fun colI => maxCellWidthHP items colI groupCount groupI 0
  return rows.flatten

/-- The loop of `compactCalcH`, /repo/horizontal.go:76-88; `none` after `fuel` rounds. -/
def compactLoopHP (t : TableP σ ι ν ε) (items : Items) (maxWidth margin : UInt16)
    (groupCountInit : Nat) :
    (fuel : Nat) → (extra : Nat) → (cellWidth : List UInt16) →
      Prog (Option (Except Panic (Nat × List UInt16)))
  | 0, _, _ => return none
  | fuel + 1, extra, cellWidth => do
    let groupCount := groupCountInit + extra + 1
    match ← (mergedRowsWidthHP t items groupCount).run with
    | .error p => return some (.error p)
    | .ok cellWidthNew =>
      if compactTotal margin (UInt16.ofNat t.columns.length) groupCount cellWidthNew > maxWidth then
        return some (.ok (extra, cellWidth))
      else compactLoopHP t items maxWidth margin groupCountInit fuel (extra + 1) cellWidthNew

/-- /repo/horizontal.go:38-66. -/
def printHP (t : TableP σ ι ν ε) (items : Items) (sep : GoString) (fails : Nat → Bool)
    (groupCount : Nat) (getWidth : Nat → Nat → Except Panic UInt16) : Prog MergeRun :=
  let lineCount := (lineCountOf items.len groupCount).toNat
  writeLinesP sep (fun lineI => lineGroupsP t items getWidth (indexH groupCount lineI) groupCount 0)
    fails lineCount 0

/-- /repo/horizontal.go:9-67 `MergeRowsHorizontal`. -/
def TableP.mergeRowsHorizontal (t : TableP σ ι ν ε) (items : Items) (maxWidthArg : Int)
    (sep : GoString) (compact : Bool) (fails : Nat → Bool) (fuel : Nat) : Prog (Option MergeRun) :=
  let margin := u16 sep.length
  let maxWidth := maxWidthOf maxWidthArg
  match t.initialGroupCount maxWidth margin with
  | .error p => return some ⟨[], some p⟩
  | .ok groupCount =>
    if compact then do
      match ← compactLoopHP t items maxWidth margin groupCount fuel 0 [] with
      | none => return none
      | some (.error p) => return some ⟨[], some p⟩
      | some (.ok (extra, cellWidth)) =>
        if extra > 0 then
          return some (← printHP t items sep fails (groupCount + extra)
            (getWidthCompact cellWidth t.columns.length))
        else return some (← printHP t items sep fails groupCount t.getWidth)
    else return some (← printHP t items sep fails groupCount t.getWidth)

/-- /repo/vertical.go:116-122. -/
def maxCellWidthVP (items : Items) (colI endItemIdx : Nat) (itemIdx : Nat) (mcw : UInt16) : ProgP UInt16 :=
  if itemIdx < endItemIdx then do
    let s ← ProgP.ofExcept (cellAt (items.get itemIdx) colI)
    let cw ← ProgP.ofProg (visualWidthP s)
    maxCellWidthVP items colI endItemIdx (itemIdx + 1) (if cw > mcw then cw else mcw)
  else return mcw
termination_by endItemIdx - itemIdx

/-- /repo/vertical.go:94-128 `mergedRowsWidthV`. -/
def mergedRowsWidthVP (t : TableP σ ι ν ε) (items : Items) (groupCount : Nat) :
    ProgP (Option (List UInt16)) :=
  let lineCount := lineCountOf items.len groupCount
  if lineCount = 0 then ProgP.ofExcept (.error .divideByZero)
  else if (groupCount : Int) > ((items.len : Int) - 1).tdiv lineCount + 1 then return none
  else do
    let lines := lineCount.toNat
    let rows ← (List.range groupCount).mapM fun groupI =>
      let endItemIdx := if (groupI + 1) * lines > items.len then items.len
        else (groupI + 1) * lines
      (List.range t.columns.length).mapM fun colI =>
        maxCellWidthVP items colI endItemIdx (groupI * lines) 0
    return some rows.flatten

/-- The loop of `compactCalcV`, /repo/vertical.go:76-91. It ends after at most as many rounds as there
are items; `rounds` is started with one more and never runs out. -/
def compactLoopVP (t : TableP σ ι ν ε) (items : Items) (maxWidth margin : UInt16)
    (groupCountInit : Nat) :
    (rounds : Nat) → (extra : Nat) → (cellWidth : List UInt16) → ProgP (Nat × List UInt16)
  | 0, extra, cellWidth => return (extra, cellWidth)
  | rounds + 1, extra, cellWidth => do
    let groupCount := groupCountInit + extra + 1
    match ← mergedRowsWidthVP t items groupCount with
    | none => return (extra, cellWidth)
    | some cellWidthNew =>
      if compactTotal margin (UInt16.ofNat t.columns.length) groupCount cellWidthNew > maxWidth then
        return (extra, cellWidth)
      else compactLoopVP t items maxWidth margin groupCountInit rounds (extra + 1) cellWidthNew

/-- /repo/vertical.go:38-66. -/
def printVP (t : TableP σ ι ν ε) (items : Items) (sep : GoString) (fails : Nat → Bool)
    (groupCount : Nat) (getWidth : Nat → Nat → Except Panic UInt16) : Prog MergeRun :=
  let lineCount := (lineCountOf items.len groupCount).toNat
  writeLinesP sep (fun lineI => lineGroupsP t items getWidth (indexV lineCount lineI) groupCount 0)
    fails lineCount 0

/-- /repo/vertical.go:9-67 `MergeRowsVertical`. -/
def TableP.mergeRowsVertical (t : TableP σ ι ν ε) (items : Items) (maxWidthArg : Int)
    (sep : GoString) (compact : Bool) (fails : Nat → Bool) : Prog MergeRun :=
  let margin := u16 sep.length
  let maxWidth := maxWidthOf maxWidthArg
  match t.initialGroupCount maxWidth margin with
  | .error p => return ⟨[], some p⟩
  | .ok groupCount =>
    if compact then do
      match ← (compactLoopVP t items maxWidth margin groupCount (items.len + 1) 0 []).run with
      | .error p => return ⟨[], some p⟩
      | .ok (extra, cellWidth) =>
        if extra > 0 then
          printVP t items sep fails (groupCount + extra) (getWidthCompact cellWidth t.columns.length)
        else printVP t items sep fails groupCount t.getWidth
    else printVP t items sep fails groupCount t.getWidth

/-! ## Goroutines -/

/-- A goroutine: what it still has to do, and whether it is between the `Get` that found nothing
(/repo/width.go:31) and the `Set` (line 35) of its first measurement. -/
structure ThreadP (α : Type) where
  prog : Prog α
  missed : Bool

/-- All goroutines and the shared cache. -/
structure SharedP (α : Type) where
  cache : Cache
  threads : Nat → ThreadP α

/-- Replace goroutine `i`. -/
def SharedP.setThread {α : Type} (st : SharedP α) (i : Nat) (g : ThreadP α) : SharedP α :=
  { st with threads := fun j => if j = i then g else st.threads j }

/-- One atomic step, under width settings `f`. Everything a goroutine does between two cache operations
is local to it. That `Get` and `Set` are atomic is assumed: the cache package is not in /repo. -/
inductive SharedP.Step {α : Type} (f : Flags) : SharedP α → SharedP α → Prop where
  /-- the cache drops some entries -/
  | evict (st : SharedP α) (ev : Evict) : Step f st { st with cache := st.cache.drop ev }
  /-- /repo/width.go:30-33: `Get` finds a positive width, which is returned -/
  | hit (st : SharedP α) (i : Nat) (s : GoString) (k : UInt16 → Prog α)
      (ht : st.threads i = ⟨.measure s k, false⟩) (hw : 0 < (st.cache s).getD 0) :
      Step f st (st.setThread i ⟨k ((st.cache s).getD 0), false⟩)
  /-- /repo/width.go:30-31: `Get` finds nothing, or the width 0 -/
  | miss (st : SharedP α) (i : Nat) (s : GoString) (k : UInt16 → Prog α)
      (ht : st.threads i = ⟨.measure s k, false⟩) (hw : ¬ 0 < (st.cache s).getD 0) :
      Step f st (st.setThread i ⟨.measure s k, true⟩)
  /-- /repo/width.go:34-36: compute, `Set`, return -/
  | store (st : SharedP α) (i : Nat) (s : GoString) (k : UInt16 → Prog α)
      (ht : st.threads i = ⟨.measure s k, true⟩) :
      Step f st ({ st with cache := st.cache.set s (visualWidth f s) }.setThread i
        ⟨k (visualWidth f s), false⟩)

/-- Executions: any number of steps. -/
inductive SharedP.Reaches {α : Type} (f : Flags) : SharedP α → SharedP α → Prop where
  | refl (st : SharedP α) : Reaches f st st
  | step {a b c : SharedP α} : Reaches f a b → SharedP.Step f b c → Reaches f a c

/-- Start: an empty cache, goroutine `i` is to run `work i`. -/
def SharedP.start {α : Type} (work : Nat → Prog α) : SharedP α where
  cache := fun _ => none
  threads := fun i => ⟨work i, false⟩

end GoTable
