import Verif.Model.Grapheme
/-!
# Specification: histories of width settings
-/

namespace GoTable.Spec

/-- What a program can do to its own `Condition`: write the two exported fields, or call `CreateLUT`. -/
inductive CondOp where
  | setFlags (f : Flags)
  | createLUT
deriving DecidableEq

/-- Effect of one operation. -/
def CondOp.apply (c : Condition) : CondOp → Condition
  | .setFlags f => { c with flags := f }
  | .createLUT => c.createLUT

/-- A condition made without a table with flags `f`, after the operations `ops`. -/
def condAfter (f : Flags) (ops : List CondOp) : Condition := ops.foldl CondOp.apply ⟨[], f⟩

/-- The flags last written. -/
def flagsAfter (f : Flags) (ops : List CondOp) : Flags :=
  ops.foldl (fun f op => match op with | .setFlags g => g | .createLUT => f) f

/-- What the package does to its default condition: read the environment again (with the value of
`RUNEWIDTH_EASTASIAN` and what the locale says), or package-level `CreateLUT`. -/
inductive PkgOp where
  | handleEnv (env : GoString) (isEA : Bool)
  | createLUT

/-- Effect of one operation. -/
def PkgOp.apply (g : Globals) : PkgOp → Globals
  | .handleEnv env isEA => g.handleEnv env isEA
  | .createLUT => g.createLUT

/-- The package variables after the operations `ops`. -/
def pkgAfter (ops : List PkgOp) : Globals := ops.foldl PkgOp.apply Globals.initial

/-- East Asian or not, as the environment says it: `RUNEWIDTH_EASTASIAN` decides if set, else the locale. -/
def envSays (env : GoString) (isEA : Bool) : Bool :=
  if env = [] then isEA else decide (env = lit "1")

end GoTable.Spec
