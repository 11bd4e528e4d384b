import Verif.Model.GoString
/-!
# Specification: the UTF-8 encoding of scalar values
-/

namespace GoTable.Spec

/-- A Unicode scalar value: a code point that is not a surrogate. -/
def Scalar (r : Nat) : Prop := r < 0xD800 ∨ (0xDFFF < r ∧ r ≤ 0x10FFFF)

/-- The UTF-8 encoding of a scalar value (RFC 3629). -/
def encode (r : Nat) : GoString :=
  if r < 0x80 then [UInt8.ofNat r]
  else if r < 0x800 then [UInt8.ofNat (0xC0 + r / 64), UInt8.ofNat (0x80 + r % 64)]
  else if r < 0x10000 then
    [UInt8.ofNat (0xE0 + r / 4096), UInt8.ofNat (0x80 + r / 64 % 64), UInt8.ofNat (0x80 + r % 64)]
  else
    [UInt8.ofNat (0xF0 + r / 262144), UInt8.ofNat (0x80 + r / 4096 % 64),
     UInt8.ofNat (0x80 + r / 64 % 64), UInt8.ofNat (0x80 + r % 64)]

/-- Valid UTF-8: the concatenation of encodings of scalar values. -/
def ValidUTF8 (s : GoString) : Prop := ∃ rs : List Nat, (∀ r ∈ rs, Scalar r) ∧ s = (rs.map encode).flatten

end GoTable.Spec
