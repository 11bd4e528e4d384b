import Verif.Model.Merge
/-!
# The exported functions as they reach the widths of a table

In the other model files a function takes the recorded widths (/repo/table.go:45) as they are when it is called. Here every
function that uses them is modelled a second time, as a program that reads and writes entries of the map one at a time, so
that several goroutines can use one table. Simplified: the columns do not change meanwhile, getters, alignments, item lists
and writers do not use the table, and widths of texts are computed without the cache (for which see `Cached`).
-/

namespace GoTable

/-- A computation that uses the map `columnWidth` on the way: finished, about to read an entry, or about to write one. -/
inductive Acts (α : Type) where
  | ret (a : α)
  | read (name : GoString) (k : UInt16 → Acts α)
  | write (name : GoString) (w : UInt16) (k : Acts α)

/-- Sequencing. -/
def Acts.bind {α β : Type} : Acts α → (α → Acts β) → Acts β
  | .ret a, g => g a
  | .read n k, g => .read n fun w => (k w).bind g
  | .write n w k, g => .write n w (k.bind g)

instance : Monad Acts where
  pure := .ret
  bind := .bind

/-- Alone: the result, and the map afterwards. -/
def Acts.run {α : Type} : Acts α → WidthMap → α × WidthMap
  | .ret a, cw => (a, cw)
  | .read n k, cw => (k (cw n)).run cw
  | .write n w k, cw => k.run (cw.set n w)

/-- /repo/table.go:74-76 `Width`, and `t.columnWidth[name]` elsewhere. -/
def widthA (name : GoString) : Acts UInt16 := .read name .ret

/-- /repo/table.go:68-70 and 113-115: an entry is written if the width is larger than what was read. -/
def recordA (name : GoString) (width : UInt16) : Acts Unit := do
  let old ← widthA name
  if width > old then .write name width (.ret ()) else return ()

/-- /repo/table.go:66-72 `UpdateWidth`; `entries` are the entries of the argument in the order of iteration. -/
def updateWidthA : (entries : List (GoString × UInt16)) → Acts Unit
  | [] => return ()
  | e :: entries => do
    recordA e.1 e.2
    updateWidthA entries

variable {σ ι ν ε : Type}

/-- The loop of `FormatItem`, /repo/table.go:98-116. -/
def formatItemLoopA (f : Flags) (item : ι) :
    List (Column σ ι ν ε) → (formatted : List GoString) → σ → Acts (Except ε (List GoString) × σ)
  | [], formatted, st => return (.ok formatted, st)
  | col :: cols, formatted, st =>
    match col.getter.value item st with
    | (.error e, st) => return (.error e, st)
    | (.ok value, st) =>
      match col.getter.format item value st with
      | (.error e, st) => return (.error e, st)
      | (.ok valueFormatted, st) => do
        recordA col.name (visualWidth f valueFormatted)
        formatItemLoopA f item cols (formatted ++ [valueFormatted]) st

/-- /repo/table.go:95-118 `FormatItem`. -/
def formatItemA (f : Flags) (columns : List (Column σ ι ν ε)) (item : ι) (st : σ) :
    Acts (Except ε (List GoString) × σ) :=
  formatItemLoopA f item columns [] st

/-- The in-place loop of `AlignFormattedItem`, /repo/table.go:124-132. -/
def alignLoopA (s : Slice) : List (Column σ ι ν ε) → (i : Nat) → Memory → Acts (Option Memory)
  | [], _, m => return some m
  | col :: cols, i, m =>
    match col.alignment with
    | none => alignLoopA s cols (i + 1) m
    | some al =>
      match s.get? m i with
      | none => return none
      | some x => do
        let w ← widthA col.name
        match s.set? m i (al x w) with
        | none => return none
        | some m => alignLoopA s cols (i + 1) m

/-- /repo/table.go:120-134 `AlignFormattedItem`. -/
def alignFormattedItemA (columns : List (Column σ ι ν ε)) (m : Memory) (s : Slice) :
    Acts (Option (Except (Nat × Nat) Slice × Memory)) :=
  if s.len ≠ columns.length then return some (.error (s.len, columns.length), m)
  else do
    match ← alignLoopA s columns 0 m with
    | none => return none
    | some m => return some (.ok s, m)

/-- /repo/table.go:136-150 `padColumnHeader`. -/
def padColumnHeaderA (f : Flags) (col : Column σ ι ν ε) : Acts GoString := do
  let width ← widthA col.name
  let value := col.title
  if width = 0 then return value
  else
    let value :=
      if value.length > width.toNat then
        if col.shortTitle.length > width.toNat then [] else col.shortTitle
      else value
    return alignmentCenter f value width

/-- The loop of `FormatHeader`, /repo/table.go:154-156. -/
def headerLoopA (f : Flags) (sep : GoString) : List (Column σ ι ν ε) → (str : GoString) → Acts GoString
  | [], str => return str
  | col :: cols, str => do
    let h ← padColumnHeaderA f col
    headerLoopA f sep cols (str ++ (h ++ sep))

/-- /repo/table.go:152-159 `FormatHeader`. -/
def formatHeaderA (f : Flags) (columns : List (Column σ ι ν ε)) (sep : GoString) : Acts GoString := do
  let str ← headerLoopA f sep columns []
  return str ++ lit "\n"

/-- The loop of `TableWidth`, /repo/table.go:163-165. -/
def tableWidthLoopA : List (Column σ ι ν ε) → (width : UInt16) → Acts UInt16
  | [], width => return width
  | col :: cols, width => do
    let w ← widthA col.name
    tableWidthLoopA cols (width + w)

/-- /repo/table.go:161-167 `TableWidth`. -/
def tableWidthA (columns : List (Column σ ι ν ε)) (margin : UInt16) : Acts UInt16 :=
  tableWidthLoopA columns ((UInt16.ofNat columns.length - 1) * margin)

/-- /repo/horizontal.go:16,22-25, /repo/vertical.go:16,22-25. -/
def initialGroupCountA (columns : List (Column σ ι ν ε)) (maxWidth margin : UInt16) : Acts (Except Panic Nat) := do
  let w ← tableWidthA columns margin
  let d := w + margin
  if d = 0 then return .error .divideByZero
  else
    let groupCount := ((maxWidth + margin) / d).toNat
    return .ok (if groupCount < 1 then 1 else groupCount)

/-- /repo/horizontal.go:26-28, /repo/vertical.go:26-28. -/
def getWidthA (columns : List (Column σ ι ν ε)) (colI : Nat) (_groupI : Nat) : Acts (Except Panic UInt16) :=
  match columns[colI]? with
  | some col => do
    let w ← widthA col.name
    return .ok w
  | none => return .error .index

/-- /repo/horizontal.go:33-35, /repo/vertical.go:33-35: no use of the table. -/
def getWidthCompactA (cellWidth : List UInt16) (colN : Nat) (colI : Nat) (groupI : Nat) : Acts (Except Panic UInt16) :=
  return getWidthCompact cellWidth colN colI groupI

/-- /repo/horizontal.go:49-59, /repo/vertical.go:49-59. -/
def renderCellsA (f : Flags) (getWidth : Nat → Nat → Acts (Except Panic UInt16)) (groupI : Nat)
    (item : List GoString) : List (Column σ ι ν ε) → (colI : Nat) → Acts (Except Panic (List GoString))
  | [], _ => return .ok []
  | col :: cols, colI =>
    match cellAt item colI with
    | .error p => return .error p
    | .ok str => do
      match ← getWidth colI groupI with
      | .error p => return .error p
      | .ok w =>
        let x := (match col.alignment with
          | none => alignmentLeft f
          | some al => al) str w
        match ← renderCellsA f getWidth groupI item cols (colI + 1) with
        | .error p => return .error p
        | .ok rest => return .ok (x :: rest)

/-- /repo/horizontal.go:41-61, /repo/vertical.go:41-61. -/
def lineGroupsA (f : Flags) (columns : List (Column σ ι ν ε)) (items : Items)
    (getWidth : Nat → Nat → Acts (Except Panic UInt16)) (index : Nat → Nat) (groupCount : Nat)
    (groupI : Nat) : Acts (Except Panic (List GoString)) :=
  if groupI < groupCount then
    let itemIdx := index groupI
    if itemIdx ≥ items.len then return .ok [[]]
    else do
      match ← renderCellsA f getWidth groupI (items.get itemIdx) columns 0 with
      | .error p => return .error p
      | .ok cell =>
        match ← lineGroupsA f columns items getWidth index groupCount (groupI + 1) with
        | .error p => return .error p
        | .ok rest => return .ok (join innerSep cell :: rest)
  else return .ok []
termination_by groupCount - groupI

/-- /repo/horizontal.go:40-66, /repo/vertical.go:40-66. -/
def writeLinesA (sep : GoString) (line : Nat → Acts (Except Panic (List GoString))) (fails : Nat → Bool)
    (lineCount : Nat) (lineI : Nat) : Acts MergeRun :=
  if lineI < lineCount then do
    match ← line lineI with
    | .error p => return ⟨[], some p⟩
    | .ok parts =>
      let out := join sep parts ++ lit "\n"
      if fails lineI then return ⟨[out], some .write⟩
      else
        let r ← writeLinesA sep line fails lineCount (lineI + 1)
        return ⟨out :: r.written, r.panic⟩
  else return ⟨[], none⟩
termination_by lineCount - lineI

/-- /repo/horizontal.go:38-66. -/
def printHA (f : Flags) (columns : List (Column σ ι ν ε)) (items : Items) (sep : GoString) (fails : Nat → Bool)
    (groupCount : Nat) (getWidth : Nat → Nat → Acts (Except Panic UInt16)) : Acts MergeRun :=
  let lineCount := (lineCountOf items.len groupCount).toNat
  writeLinesA sep (fun lineI => lineGroupsA f columns items getWidth (indexH groupCount lineI) groupCount 0)
    fails lineCount 0

/-- /repo/vertical.go:38-66. -/
def printVA (f : Flags) (columns : List (Column σ ι ν ε)) (items : Items) (sep : GoString) (fails : Nat → Bool)
    (groupCount : Nat) (getWidth : Nat → Nat → Acts (Except Panic UInt16)) : Acts MergeRun :=
  let lineCount := (lineCountOf items.len groupCount).toNat
  writeLinesA sep (fun lineI => lineGroupsA f columns items getWidth (indexV lineCount lineI) groupCount 0)
    fails lineCount 0

/-- /repo/horizontal.go:9-67 `MergeRowsHorizontal`. `compactCalcH` (69-111) uses the number of columns and the items only, so
it is taken as it is, with a table without widths. -/
def mergeRowsHorizontalA (f : Flags) (columns : List (Column σ ι ν ε)) (items : Items) (maxWidthArg : Int)
    (sep : GoString) (compact : Bool) (fails : Nat → Bool) (fuel : Nat) : Acts (Option MergeRun) := do
  let margin := u16 sep.length
  let maxWidth := maxWidthOf maxWidthArg
  match ← initialGroupCountA columns maxWidth margin with
  | .error p => return some ⟨[], some p⟩
  | .ok groupCount =>
    if compact then
      match compactCalcH f { columns := columns, columnWidth := fun _ => 0 } items maxWidth margin groupCount fuel with
      | none => return none
      | some (.error p) => return some ⟨[], some p⟩
      | some (.ok (extra, cellWidth)) =>
        if extra > 0 then
          return some (← printHA f columns items sep fails (groupCount + extra)
            (getWidthCompactA cellWidth columns.length))
        else return some (← printHA f columns items sep fails groupCount (getWidthA columns))
    else return some (← printHA f columns items sep fails groupCount (getWidthA columns))

/-- /repo/vertical.go:9-67 `MergeRowsVertical`, `compactCalcV` (69-128) likewise. The group count is at least 1 (lines 23-25),
so the case that it is 0 does not arise. -/
def mergeRowsVerticalA (f : Flags) (columns : List (Column σ ι ν ε)) (items : Items) (maxWidthArg : Int)
    (sep : GoString) (compact : Bool) (fails : Nat → Bool) : Acts MergeRun := do
  let margin := u16 sep.length
  let maxWidth := maxWidthOf maxWidthArg
  match ← initialGroupCountA columns maxWidth margin with
  | .error p => return ⟨[], some p⟩
  | .ok groupCount =>
    if compact then
      if h : 1 ≤ groupCount then
        match compactCalcV f { columns := columns, columnWidth := fun _ => 0 } items maxWidth margin groupCount h with
        | .error p => return ⟨[], some p⟩
        | .ok (extra, cellWidth) =>
          if extra > 0 then
            printVA f columns items sep fails (groupCount + extra) (getWidthCompactA cellWidth columns.length)
          else printVA f columns items sep fails groupCount (getWidthA columns)
      else return ⟨[], none⟩
    else printVA f columns items sep fails groupCount (getWidthA columns)

/-! ## Goroutines -/

/-- A table used by goroutines, each with what it has still to do. -/
structure SharedT (α : Type) where
  widths : WidthMap
  threads : Nat → Acts α

/-- Replace goroutine `i`. -/
def SharedT.setThread {α : Type} (st : SharedT α) (i : Nat) (p : Acts α) : SharedT α :=
  { st with threads := fun j => if j = i then p else st.threads j }

/-- One step of one goroutine. -/
inductive SharedT.Step {α : Type} : SharedT α → SharedT α → Prop where
  | read (st : SharedT α) (i : Nat) (n : GoString) (k : UInt16 → Acts α) (h : st.threads i = .read n k) :
      Step st (st.setThread i (k (st.widths n)))
  | write (st : SharedT α) (i : Nat) (n : GoString) (w : UInt16) (k : Acts α) (h : st.threads i = .write n w k) :
      Step st ({ st with widths := st.widths.set n w }.setThread i k)

/-- Executions: any number of steps. -/
inductive SharedT.Reaches {α : Type} : SharedT α → SharedT α → Prop where
  | refl (st : SharedT α) : Reaches st st
  | step {a b c : SharedT α} : Reaches a b → SharedT.Step b c → Reaches a c

/-- Two goroutines are about to use the map and one of them to write. Go calls this a data race, whatever the keys, and its
runtime may end the program. -/
def SharedT.Race {α : Type} (st : SharedT α) : Prop :=
  ∃ i j, i ≠ j ∧ (∃ n w k, st.threads i = .write n w k) ∧
    ((∃ n k, st.threads j = .read n k) ∨ ∃ n w k, st.threads j = .write n w k)

end GoTable
