import Verif.Model.GoString
/-!
# Specification: control sequences and coloured text
-/

namespace GoTable.Spec

/-- A parameter of a control sequence: up to four decimal digits (possibly none). -/
def Param (p : GoString) : Prop := p.length ≤ 4 ∧ ∀ b ∈ p, 0x30 ≤ b.toNat ∧ b.toNat ≤ 0x39

/-- The control sequence `ESC [ p1 ; p2 ; ... fin`. -/
def csi (ps : List GoString) (fin : UInt8) : GoString := lit "\x1b[" ++ List.intercalate (lit ";") ps ++ [fin]

/-- The colour sequence `ESC [ p1 ; p2 ; ... m`. -/
def sgr (ps : List GoString) : GoString := csi ps 0x6D

/-- Text segments with colour sequences in between (a segment may be empty, so this also covers
sequences at the ends and next to each other). -/
def coloured (s0 : GoString) (rest : List (List GoString × GoString)) : GoString :=
  s0 ++ rest.flatMap fun e => sgr e.1 ++ e.2

end GoTable.Spec
