import Verif.Spec.UTF8
/-!
# Specification: lines of the Unicode data files
-/

namespace GoTable.Spec

/-- `0`-`9`, `A`-`F` -/
def HexDigit (b : UInt8) : Prop := (0x30 ≤ b.toNat ∧ b.toNat ≤ 0x39) ∨ (0x41 ≤ b.toNat ∧ b.toNat ≤ 0x46)

/-- Tab, newline, form feed, carriage return or space. -/
def Blank (b : UInt8) : Prop := b ∈ [0x09, 0x0A, 0x0C, 0x0D, (0x20 : UInt8)]

/-- A letter, a digit or an underscore. -/
def WordByte (b : UInt8) : Prop :=
  (0x41 ≤ b.toNat ∧ b.toNat ≤ 0x5A) ∨ (0x61 ≤ b.toNat ∧ b.toNat ≤ 0x7A) ∨ (0x30 ≤ b.toNat ∧ b.toNat ≤ 0x39) ∨ b = 0x5F

/-- Four to six hexadecimal digits. -/
def CodePointText (s : GoString) : Prop := 4 ≤ s.length ∧ s.length ≤ 6 ∧ ∀ b ∈ s, HexDigit b

/-- The line `from..to ; property # comment`, or `from ; property # comment` where `to` is `from`. -/
def PropertyLine (line from_ to property comment : GoString) : Prop :=
  ∃ range s1 s2 s3 : GoString, ∃ blank : UInt8,
    line = range ++ s1 ++ [0x3B] ++ s2 ++ property ++ s3 ++ [0x23, blank] ++ comment ∧
    (range = from_ ∧ to = from_ ∨ range = from_ ++ [0x2E, 0x2E] ++ to) ∧
    CodePointText from_ ∧ CodePointText to ∧
    (∀ b ∈ s1, Blank b) ∧ (∀ b ∈ s2, Blank b) ∧ (∀ b ∈ s3, Blank b) ∧ Blank blank ∧
    property ≠ [] ∧ (∀ b ∈ property, WordByte b) ∧ comment ≠ [] ∧ 0x0A ∉ comment

/-- The value of an upper case hexadecimal digit. -/
def hexDigitValue (b : UInt8) : Nat := if b.toNat ≤ 0x39 then b.toNat - 0x30 else b.toNat - 0x37

/-- The number written with hexadecimal digits. -/
def hexNumber : GoString → Nat
  | [] => 0
  | b :: t => hexDigitValue b * 16 ^ t.length + hexNumber t

/-- The code points with the property White_Space (PropList.txt). -/
def whiteSpace : List Nat :=
  [0x09, 0x0A, 0x0B, 0x0C, 0x0D, 0x20, 0x85, 0xA0, 0x1680, 0x2000, 0x2001, 0x2002, 0x2003, 0x2004, 0x2005, 0x2006,
   0x2007, 0x2008, 0x2009, 0x200A, 0x2028, 0x2029, 0x202F, 0x205F, 0x3000]

/-- `t` is `s` without the white space at its ends. -/
structure Trimmed (s t : GoString) : Prop where
  around : ∃ a b : List Nat, (∀ c ∈ a ++ b, c ∈ whiteSpace) ∧
    s = (a.map encode).flatten ++ t ++ (b.map encode).flatten
  front : ∀ c ∈ whiteSpace, ¬ encode c <+: t
  back : ∀ c ∈ whiteSpace, ¬ encode c <:+ t

end GoTable.Spec
