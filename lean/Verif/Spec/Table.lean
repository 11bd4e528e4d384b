import Verif.Model.Table
/-!
# Specification: what a table has been told

Written as a log of calls, latest first. It uses the shapes of calls and columns from the model (what a
caller supplies) and none of its functions on tables.
-/

namespace GoTable.Spec

variable {σ ι ν ε : Type}

/-- `m` is the largest of `ws`, 0 if there are none. -/
def IsMax (ws : List UInt16) (m : UInt16) : Prop := (∀ w ∈ ws, w ≤ m) ∧ (m = 0 ∨ m ∈ ws)

/-- One cell: `Value`, then, if that succeeds, `Format` on the value. -/
def cell (col : Column σ ι ν ε) (item : ι) (st : σ) : Except ε GoString × σ :=
  match col.getter.value item st with
  | (.error e, st) => (.error e, st)
  | (.ok v, st) => col.getter.format item v st

/-- The outcome of producing one text per column by `get`, in order, up to the first error: the texts
before it, the error if any, and the user state after the last call made. -/
def upToError (get : Column σ ι ν ε → σ → Except ε GoString × σ) :
    List (Column σ ι ν ε) → σ → List GoString × Option ε × σ
  | [], st => ([], none, st)
  | c :: cs, st =>
    match get c st with
    | (.error e, st) => ([], some e, st)
    | (.ok x, st) => (x :: (upToError get cs st).1, (upToError get cs st).2)

/-- A result with an optional error, as a caller sees it. -/
def resultOf {α : Type} (x : α) : Option ε → Except ε α
  | none => .ok x
  | some e => .error e

/-- The widths reported for `name`. -/
def reported (name : GoString) (entries : List (GoString × UInt16)) : List UInt16 :=
  (entries.filter (fun e => e.1 = name)).map Prod.snd

/-- What a column of width `w` shows of its titles. -/
def headerTitle (title short : GoString) (w : Nat) : GoString :=
  if title.length ≤ w then title else if short.length ≤ w then short else []

/-- `text` stands over a column of width `w` that is not zero: the title if its bytes fit, else the short
title if its bytes fit, else nothing, with spaces on both sides (an odd one on the left) that make up the
difference to `w`. `vw` is the display width of a text. -/
def HeaderText (vw : GoString → UInt16) (title short : GoString) (w : UInt16) (text : GoString) : Prop :=
  ∃ l r, text = List.replicate l 0x20 ++ headerTitle title short w.toNat ++ List.replicate r 0x20 ∧
    (l = r ∨ l = r + 1) ∧ l + r = w.toNat - (vw (headerTitle title short w.toNat)).toNat

/-! ## Logs of calls, latest call first -/

/-- How many specs exist. -/
def specCount : List (WorldOp σ ι ν ε) → Nat
  | [] => 0
  | .newSpec :: past => specCount past + 1
  | .newTableNil :: past => specCount past + 1
  | _ :: past => specCount past

/-- The spec of each table, in order of creation. -/
def specOfTable : List (WorldOp σ ι ν ε) → List Nat
  | [] => []
  | .newTable sp :: past => if sp < specCount past then specOfTable past ++ [sp] else specOfTable past
  | .newTableNil :: past => specOfTable past ++ [specCount past]
  | _ :: past => specOfTable past

/-- The columns added to a spec, directly or through any table made from it, oldest first. -/
def addedTo (sp : Nat) : List (WorldOp σ ι ν ε) → List (Column σ ι ν ε)
  | [] => []
  | .addColumn sp' col :: past =>
    if sp' = sp ∧ sp < specCount past then addedTo sp past ++ [col] else addedTo sp past
  | .tableAddColumn t col :: past =>
    if (specOfTable past)[t]? = some sp then addedTo sp past ++ [col] else addedTo sp past
  | _ :: past => addedTo sp past

/-- The columns of table `t`. -/
def columnsOf (t : Nat) (past : List (WorldOp σ ι ν ε)) : List (Column σ ι ν ε) :=
  match (specOfTable past)[t]? with
  | none => []
  | some sp => addedTo sp past

/-- The widths table `t` was told about, by name: those passed to `UpdateWidth` on it, and the display
widths of all cells formatted by `FormatItem` on it. `vw` is the display width of a text. -/
def toldTo (vw : GoString → UInt16) (t : Nat) : List (WorldOp σ ι ν ε) → List (GoString × UInt16)
  | [] => []
  | .updateWidth t' entries :: past =>
    if t' = t ∧ t < (specOfTable past).length then entries ++ toldTo vw t past else toldTo vw t past
  | .formatItem t' item st :: past =>
    if t' = t then
      (((columnsOf t past).map Column.name).zip
        ((upToError (fun c st => cell c item st) (columnsOf t past) st).1.map vw)) ++ toldTo vw t past
    else toldTo vw t past
  | _ :: past => toldTo vw t past

/-- The world after the logged calls. -/
def worldAfter (f : Flags) : List (WorldOp σ ι ν ε) → World σ ι ν ε
  | [] => World.empty
  | op :: past => (worldAfter f past).step f op

end GoTable.Spec
