import Verif.Model.Tables.RuneWidth
import Verif.Model.GoString
/-!
# /repo/runewidth/runewidth.go: table lookup, RuneWidth and its lookup table
-/

namespace GoTable

/-- The loop of `inTable`, /repo/runewidth/runewidth.go:67-82. `bot` and `top` are the loop variables
(`top` may become -1, so both are `Int`). The hypotheses are the loop's index-safety invariant: they
make `t[mid]` an in-range access by construction. Runes are `Nat` because `RuneWidth` rejects negative
ones before any lookup. -/
def inTableLoop (t : IntervalTable) (r : Nat) (bot top : Int) (hb : 0 ≤ bot) (ht : top < t.length) :
    Bool :=
  if h : bot ≤ top then
    let mid := (bot + top) / 2
    let e := t[mid.toNat]'(by omega)
    if e.2 < r then inTableLoop t r (mid + 1) top (by omega) ht
    else if r < e.1 then inTableLoop t r bot (mid - 1) hb (by omega)
    else true
  else false
termination_by (top - bot + 1).toNat
decreasing_by all_goals omega

/-- /repo/runewidth/runewidth.go:62-83 `inTable`. Go would panic on an empty table (`t[0]`); no shipped
table is empty, and the model answers `false` there. -/
def inTable (r : Nat) (t : IntervalTable) : Bool :=
  match t with
  | [] => false
  | e :: es =>
    if r < e.1 then false
    else inTableLoop (e :: es) r 0 (((e :: es).length : Int) - 1) (by omega) (by omega)

/-- /repo/runewidth/runewidth.go:53-60 `inTables`. -/
def inTables (r : Nat) : List IntervalTable → Bool
  | [] => false
  | t :: ts => if inTable r t then true else inTables r ts

/-- The two exported options of `Condition`, /repo/runewidth/runewidth.go:105-109. -/
structure Flags where
  eastAsianWidth : Bool
  strictEmojiNeutral : Bool
deriving DecidableEq, Repr

/-- /repo/runewidth/runewidth.go:105-109 `type Condition`. -/
structure Condition where
  combinedLut : List UInt8
  flags : Flags

/-- The table-driven part of `RuneWidth`, /repo/runewidth/runewidth.go:128-159, for a rune already
known to be in 0..0x10FFFF. -/
def runeWidthTables (f : Flags) (r : Nat) : Nat :=
  if !f.eastAsianWidth then
    if r < 0x20 then 0
    else if (0x7F ≤ r ∧ r ≤ 0x9F) ∨ r = 0xAD then 0
    else if r < 0x300 then 1
    else if inTable r narrow then 1
    else if inTables r [nonprint, combining] then 0
    else if inTable r doublewidth then 2
    else 1
  else
    if inTables r [nonprint, combining] then 0
    else if inTable r narrow then 1
    else if inTables r [ambiguous, doublewidth] then 2
    else if !f.strictEmojiNeutral && inTables r [ambiguous, emoji, narrow] then 2
    else 1

/-- `RuneWidth` of a condition without lookup table, /repo/runewidth/runewidth.go:121-160. -/
def runeWidth (f : Flags) (r : Int) : Nat :=
  if r < 0 ∨ 0x10FFFF < r then 0 else runeWidthTables f r.toNat

/-- /repo/runewidth/runewidth.go:121-160 `(*Condition).RuneWidth`. `none` is Go's
index-out-of-range panic on `c.combinedLut[r>>1]`. -/
def Condition.runeWidth (c : Condition) (r : Int) : Option Nat :=
  if r < 0 ∨ 0x10FFFF < r then some 0
  else if 0 < c.combinedLut.length then
    match c.combinedLut[r.toNat >>> 1]? with
    | some b => some ((b >>> (UInt8.ofNat (r.toNat &&& 1) * 4)).toNat &&& 3)
    | none => none
  else some (runeWidthTables c.flags r.toNat)

/-- One byte of the lookup table, /repo/runewidth/runewidth.go:175-178: `c.RuneWidth` is evaluated with
`combinedLut` empty (line 170 or a fresh condition), so it is the table-driven width. -/
def lutByte (f : Flags) (i : Nat) : UInt8 :=
  let x0 := GoTable.runeWidth f (i * 2 : Nat)
  let x1 := GoTable.runeWidth f (i * 2 + 1 : Nat)
  UInt8.ofNat x0 ||| (UInt8.ofNat x1 <<< 4)

/-- /repo/runewidth/runewidth.go:165-181 `(*Condition).CreateLUT`: an existing table is overwritten in
place (same length), otherwise one of 0x110000/2 bytes is made. -/
def Condition.createLUT (c : Condition) : Condition :=
  let n := if c.combinedLut.length ≠ 0 then c.combinedLut.length else 0x110000 / 2
  { c with combinedLut := (List.range n).map (lutByte c.flags) }

/-- The package variables of /repo/runewidth/runewidth.go:11-23. -/
structure Globals where
  eastAsianWidth : Bool
  strictEmojiNeutral : Bool
  defaultCondition : Condition

/-- Initial values of the package variables, /repo/runewidth/runewidth.go:11-23, before `init`. -/
def Globals.initial : Globals where
  eastAsianWidth := false
  strictEmojiNeutral := true
  defaultCondition := { combinedLut := [], flags := ⟨false, true⟩ }

/-- /repo/runewidth/runewidth.go:112-117 `NewCondition`. -/
def Globals.newCondition (g : Globals) : Condition :=
  { combinedLut := [], flags := ⟨g.eastAsianWidth, g.strictEmojiNeutral⟩ }

/-- /repo/runewidth/runewidth.go:206-211, package-level `CreateLUT`. -/
def Globals.createLUT (g : Globals) : Globals :=
  if 0 < g.defaultCondition.combinedLut.length then g
  else { g with defaultCondition := g.defaultCondition.createLUT }

/-- /repo/runewidth/runewidth.go:29-44 `handleEnv`. `env` is `os.Getenv("RUNEWIDTH_EASTASIAN")` and
`isEA` the answer of `IsEastAsian()`. -/
def Globals.handleEnv (g : Globals) (env : GoString) (isEA : Bool) : Globals :=
  let ea := if env = [] then isEA else env == lit "1"
  let g := { g with eastAsianWidth := ea }
  if g.defaultCondition.flags.eastAsianWidth ≠ g.eastAsianWidth then
    let d := g.defaultCondition
    let d := { d with flags := { d.flags with eastAsianWidth := g.eastAsianWidth } }
    if 0 < d.combinedLut.length then
      Globals.createLUT { g with defaultCondition := { d with combinedLut := [] } }
    else { g with defaultCondition := d }
  else g

end GoTable
