import Verif.Model.Tables.Grapheme
/-!
# Specification: extended grapheme cluster boundaries (UAX #29, Unicode 14, rules GB3-GB999)

Written from the rules of the annex, as a predicate on what stands to the left of a position and the
class of the code point to its right. It mentions neither the parser's states nor its transition table.
The only input taken from the code is the table that assigns classes to code points.
-/

namespace GoTable.Spec

/-- Grapheme_Cluster_Break classes, with Extended_Pictographic as a class of its own. -/
inductive GCB
  | other | prepend | cr | lf | control | extend | ri | spacingMark
  | l | v | t | lv | lvt | zwj | extPict
deriving DecidableEq, Repr

/-- The numbers that stand for the classes in the shipped table. -/
def GCB.ofCode : Nat → GCB
  | 2 => .prepend | 3 => .cr | 4 => .lf | 5 => .control | 6 => .extend | 7 => .ri
  | 8 => .spacingMark | 9 => .l | 10 => .v | 11 => .t | 12 => .lv | 13 => .lvt
  | 14 => .zwj | 15 => .extPict | _ => .other

/-- Class of a code point: the class of the first row that contains it (linear scan, no search). -/
def classOf (r : Nat) : GCB :=
  match graphemeCodePoints.find? (fun e => decide (e.1 ≤ r) && decide (r ≤ e.2.1)) with
  | some e => .ofCode e.2.2
  | none => .other

/-- CR × LF -/
def GB3 (left : List GCB) (c : GCB) : Prop := left.getLast? = some .cr ∧ c = .lf
/-- (Control | CR | LF) ÷ -/
def GB4 (left : List GCB) : Prop :=
  left.getLast? = some .control ∨ left.getLast? = some .cr ∨ left.getLast? = some .lf
/-- ÷ (Control | CR | LF) -/
def GB5 (c : GCB) : Prop := c = .control ∨ c = .cr ∨ c = .lf
/-- L × (L | V | LV | LVT) -/
def GB6 (left : List GCB) (c : GCB) : Prop :=
  left.getLast? = some .l ∧ (c = .l ∨ c = .v ∨ c = .lv ∨ c = .lvt)
/-- (LV | V) × (V | T) -/
def GB7 (left : List GCB) (c : GCB) : Prop :=
  (left.getLast? = some .lv ∨ left.getLast? = some .v) ∧ (c = .v ∨ c = .t)
/-- (LVT | T) × T -/
def GB8 (left : List GCB) (c : GCB) : Prop :=
  (left.getLast? = some .lvt ∨ left.getLast? = some .t) ∧ c = .t
/-- × (Extend | ZWJ) -/
def GB9 (c : GCB) : Prop := c = .extend ∨ c = .zwj
/-- × SpacingMark -/
def GB9a (c : GCB) : Prop := c = .spacingMark
/-- Prepend × -/
def GB9b (left : List GCB) : Prop := left.getLast? = some .prepend
/-- Extended_Pictographic Extend* ZWJ × Extended_Pictographic -/
def GB11 (left : List GCB) (c : GCB) : Prop :=
  (∃ p k, left = p ++ [.extPict] ++ List.replicate k .extend ++ [.zwj]) ∧ c = .extPict
/-- sot (RI RI)* RI × RI and [^RI] (RI RI)* RI × RI: an odd run of regional indicators ends here. -/
def GB12_13 (left : List GCB) (c : GCB) : Prop :=
  (∃ p k, left = p ++ List.replicate (2 * k + 1) .ri ∧ p.getLast? ≠ some .ri) ∧ c = .ri

/-- There is a boundary between `left` (not empty) and a following code point of class `c`: the first
rule that applies decides, and GB999 breaks everywhere else. -/
def Breaks (left : List GCB) (c : GCB) : Prop :=
  ¬ GB3 left c ∧
    (GB4 left ∨ GB5 c ∨
      ¬ (GB6 left c ∨ GB7 left c ∨ GB8 left c ∨ GB9 c ∨ GB9a c ∨ GB9b left ∨ GB11 left c ∨
        GB12_13 left c))

end GoTable.Spec
