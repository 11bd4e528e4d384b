import Verif.Model.Grapheme
/-!
# Conditions as objects in memory

/repo/runewidth/runewidth.go:105-109: a `Condition` holds a slice, so that copies of a condition share the array of
their lookup table, and `CreateLUT` overwrites an existing array. In `Model/RuneWidth.lean` a condition is a value.
-/

namespace GoTable

/-- /repo/runewidth/runewidth.go:105-109 `type Condition`. `none` is a slice of length 0, otherwise the slice covers the
whole array. -/
structure CondObject where
  lut : Option Nat
  flags : Flags

/-- The variables `EastAsianWidth` and `StrictEmojiNeutral`, the variable `DefaultCondition`, the objects that pointers
to conditions point to, the arrays of the lookup tables, and how many of them have been made. -/
structure CondMemory where
  vars : Flags
  default : Nat
  object : Nat → CondObject
  array : Nat → List UInt8
  made : Nat

/-- /repo/runewidth/runewidth.go:11-23: the variables at the start, `DefaultCondition` being object 0. Objects that have
not been given a value have the zero value of Go. -/
def CondMemory.initial : CondMemory where
  vars := ⟨false, true⟩
  default := 0
  object := fun c => if c = 0 then ⟨none, ⟨false, true⟩⟩ else ⟨none, ⟨false, false⟩⟩
  array := fun _ => []
  made := 0

/-- The condition a method of `c` sees. -/
def CondMemory.view (m : CondMemory) (c : Nat) : Condition :=
  { combinedLut := match (m.object c).lut with | none => [] | some a => m.array a, flags := (m.object c).flags }

/-- Assignment to `*c`. -/
def CondMemory.assign (m : CondMemory) (c : Nat) (x : CondObject) : CondMemory :=
  { m with object := fun i => if i = c then x else m.object i }

/-- /repo/runewidth/runewidth.go:112-117 `*c = *NewCondition()`. -/
def CondMemory.newCondition (m : CondMemory) (c : Nat) : CondMemory := m.assign c ⟨none, m.vars⟩

/-- /repo/runewidth/runewidth.go:165-181 `c.CreateLUT()`: the array is filled anew if there is one, else a new one is
made. The widths are those without table: line 170 takes the table away in the meantime. -/
def CondMemory.createLUT (m : CondMemory) (c : Nat) : CondMemory :=
  match (m.object c).lut with
  | some a =>
    if (m.array a).length ≠ 0 then
      { m with array := fun i => if i = a then (m.view c).createLUT.combinedLut else m.array i }
    else
      { m.assign c ⟨some m.made, (m.object c).flags⟩ with
        array := fun i => if i = m.made then (m.view c).createLUT.combinedLut else m.array i, made := m.made + 1 }
  | none =>
    { m.assign c ⟨some m.made, (m.object c).flags⟩ with
      array := fun i => if i = m.made then (m.view c).createLUT.combinedLut else m.array i, made := m.made + 1 }

/-- /repo/runewidth/runewidth.go:206-211, package-level `CreateLUT`. -/
def CondMemory.packageLUT (m : CondMemory) : CondMemory :=
  if 0 < (m.view m.default).combinedLut.length then m else m.createLUT m.default

/-- /repo/runewidth/runewidth.go:121-160 `c.RuneWidth(r)`. -/
def CondMemory.runeWidth (m : CondMemory) (c : Nat) (r : Int) : Option Nat := (m.view c).runeWidth r

/-- /repo/runewidth/runewidth.go:184-198 `c.StringWidth(s)`. -/
def CondMemory.stringWidth (m : CondMemory) (c : Nat) (s : GoString) : Option Nat := (m.view c).stringWidth s

/-- /repo/runewidth/runewidth.go:200-203, package-level `StringWidth`. -/
def CondMemory.packageWidth (m : CondMemory) (s : GoString) : Option Nat := m.stringWidth m.default s

end GoTable
