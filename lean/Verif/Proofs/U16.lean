import Verif.Model.GoString
/-! Arithmetic modulo 2^16. -/

namespace GoTable

theorem u16_toNat (i : Int) : ((u16 i).toNat : Int) = i % 65536 := by
  unfold u16
  rw [UInt16.toNat_ofNat']
  have h1 := Int.emod_nonneg i (b := 65536) (by omega)
  have h2 := Int.emod_lt_of_pos i (b := 65536) (by omega)
  rw [Nat.mod_eq_of_lt (by omega)]
  omega

theorem u16_eq_iff (a b : Int) : u16 a = u16 b ↔ a % 65536 = b % 65536 := by
  rw [← UInt16.toNat_inj]
  have h1 := u16_toNat a
  have h2 := u16_toNat b
  omega

theorem u16_nat (n : Nat) (h : n < 65536) : (u16 n).toNat = n := by
  have := u16_toNat n; omega

theorem u16_eq_ofNat (n : Nat) : u16 n = UInt16.ofNat n := by
  rw [← UInt16.toNat_inj, UInt16.toNat_ofNat']
  have := u16_toNat n
  omega

theorem u16_of_toNat (x : UInt16) : u16 x.toNat = x := by
  rw [← UInt16.toNat_inj]
  have := u16_toNat x.toNat
  have := x.toNat_lt
  omega

end GoTable
