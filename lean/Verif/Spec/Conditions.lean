import Verif.Model.Conditions
import Verif.Spec.RuneWidth
/-!
# Specification: what a condition measures by

What has to be known of a history of assignments and `CreateLUT` calls. There are no tables of widths here: of a lookup
table only the settings it was filled for matter, and which conditions use it.
-/

namespace GoTable.Spec

/-- What a program can do with conditions. `c`, `dst`, `src` stand for pointers. -/
inductive CondCall where
  /-- `*c = Condition{EastAsianWidth: …, StrictEmojiNeutral: …}`, or `c = &Condition{…}` for a new `c`. -/
  | literal (c : Nat) (f : Flags)
  /-- `*c = *NewCondition()`, or `c = NewCondition()` for a new `c`. -/
  | new (c : Nat)
  /-- `*dst = *src`. -/
  | copy (dst src : Nat)
  /-- `c.EastAsianWidth, c.StrictEmojiNeutral = …`. -/
  | setFlags (c : Nat) (f : Flags)
  /-- `c.CreateLUT()`. -/
  | createLUT (c : Nat)
  /-- `EastAsianWidth, StrictEmojiNeutral = …`, the package variables. -/
  | setVars (f : Flags)
  /-- `DefaultCondition = c`. -/
  | setDefault (c : Nat)
  /-- `CreateLUT()`, of the package. -/
  | packageLUT
deriving DecidableEq

/-- The effect of one of them. -/
def CondCall.apply (m : CondMemory) : CondCall → CondMemory
  | .literal c f => m.assign c ⟨none, f⟩
  | .new c => m.newCondition c
  | .copy dst src => m.assign dst (m.object src)
  | .setFlags c f => m.assign c ⟨(m.object c).lut, f⟩
  | .createLUT c => m.createLUT c
  | .setVars f => { m with vars := f }
  | .setDefault c => { m with default := c }
  | .packageLUT => m.packageLUT

/-- The memory after these calls, in order. -/
def memoryAfter (calls : List CondCall) : CondMemory := calls.foldl CondCall.apply .initial

/-- What matters of a history: the package variables, the default condition, the settings of each condition, which
lookup table it uses if any, what each table was last filled for, and the number of tables. -/
structure Known where
  vars : Flags
  default : Nat
  fields : Nat → Flags
  table : Nat → Option Nat
  filledFor : Nat → Flags
  tables : Nat

/-- At the start. -/
def Known.initial : Known where
  vars := ⟨false, true⟩
  default := 0
  fields := fun c => if c = 0 then ⟨false, true⟩ else ⟨false, false⟩
  table := fun _ => none
  filledFor := fun _ => ⟨false, false⟩
  tables := 0

/-- A function with another value at one place. -/
def update {α : Type} (g : Nat → α) (i : Nat) (x : α) : Nat → α := fun j => if j = i then x else g j

/-- `CreateLUT` of a condition: fills its table for its settings, a new one if it has none. -/
def Known.fill (k : Known) (c : Nat) : Known :=
  match k.table c with
  | some t => { k with filledFor := update k.filledFor t (k.fields c) }
  | none => { k with table := update k.table c (some k.tables), filledFor := update k.filledFor k.tables (k.fields c),
                     tables := k.tables + 1 }

/-- After one more call. -/
def Known.after (k : Known) : CondCall → Known
  | .literal c f => { k with fields := update k.fields c f, table := update k.table c none }
  | .new c => { k with fields := update k.fields c k.vars, table := update k.table c none }
  | .copy dst src => { k with fields := update k.fields dst (k.fields src), table := update k.table dst (k.table src) }
  | .setFlags c f => { k with fields := update k.fields c f }
  | .createLUT c => k.fill c
  | .setVars f => { k with vars := f }
  | .setDefault c => { k with default := c }
  | .packageLUT => if k.table k.default = none then k.fill k.default else k

/-- After all of them. -/
def known (calls : List CondCall) : Known := calls.foldl Known.after .initial

/-- The settings by which a condition measures: those its table was filled for, or its own if it has none. -/
def Known.inForce (k : Known) (c : Nat) : Flags :=
  match k.table c with
  | some t => k.filledFor t
  | none => k.fields c

/-- New settings, in the fields of conditions and in the package variables, `CreateLUT` of the package, and assignments to
conditions other than `d`. -/
def Settings (d : Nat) : CondCall → Prop
  | .setFlags _ _ | .setVars _ | .packageLUT => True
  | .literal c _ | .new c | .copy c _ => c ≠ d
  | .createLUT _ | .setDefault _ => False

end GoTable.Spec
