import Verif.Model.Align
import Verif.Proofs.Sgr
import Verif.Proofs.U16
/-! Visual width under padding with spaces. -/

namespace GoTable
open Spec

theorem stringWidth_append_spaces (f : Flags) (s : GoString) (n : Nat) (h : ¬ EndsInPrepend s) :
    stringWidth f (s ++ spaces n) = stringWidth f s + n := by
  rw [stringWidth_append_ascii f s _ (printable_spaces n) h]
  simp [spaces]

theorem stringWidth_spaces_append (f : Flags) (s : GoString) (n : Nat) (h : ¬ StartsExtending s) :
    stringWidth f (spaces n ++ s) = n + stringWidth f s := by
  have hsp : (spaces n).map UInt8.toNat = List.replicate n 0x20 := by simp [spaces]
  rw [stringWidth_eq_sw, stringWidth_eq_sw, runes_printable_append (printable_spaces n), sw_append, hsp]
  · have := sw_append_ascii f [] (List.replicate n 0x20)
      (by intro r hr; rw [(List.mem_replicate.mp hr).2]; omega) (by simp)
    rw [List.nil_append, sw_nil, List.length_replicate] at this
    omega
  · rintro hne r rs he
    have hr : ¬ (classOf r = .extend ∨ classOf r = .zwj ∨ classOf r = .spacingMark) :=
      fun hc => h ⟨r, by rw [he]; rfl, hc⟩
    refine breaks_after_other _ _ ?_ (fun h => hr (Or.inl h)) (fun h => hr (Or.inr (Or.inl h)))
      (fun h => hr (Or.inr (Or.inr h)))
    rw [hsp] at hne ⊢
    obtain ⟨m, rfl⟩ : ∃ m, n = m + 1 := ⟨n - 1, by cases n <;> simp_all⟩
    rw [List.replicate_succ', List.map_append, List.map_singleton, List.getLast?_concat,
      classOf_ascii 0x20 (by omega) (by omega)]

theorem visualWidth_append_spaces (f : Flags) (s : GoString) (n : Nat) (h : ¬ EndsInPrepend s) :
    visualWidth f (s ++ spaces n) = visualWidth f s + UInt16.ofNat n := by
  rw [visualWidth_eq, visualWidth_eq, stringWidth_append_spaces f s n h, cnt_append_spaces, ← u16_eq_ofNat,
    ← UInt16.toNat_inj, UInt16.toNat_add]
  have h1 := u16_toNat (((stringWidth f s + n : Nat) : Int) - cnt s)
  have h2 := u16_toNat ((stringWidth f s : Int) - cnt s)
  have h3 := u16_toNat n
  omega

theorem visualWidth_spaces_append (f : Flags) (s : GoString) (n : Nat) (h : ¬ StartsExtending s) :
    visualWidth f (spaces n ++ s) = UInt16.ofNat n + visualWidth f s := by
  rw [visualWidth_eq, visualWidth_eq, stringWidth_spaces_append f s n h, cnt_spaces_append, ← u16_eq_ofNat,
    ← UInt16.toNat_inj, UInt16.toNat_add]
  have h1 := u16_toNat (((n + stringWidth f s : Nat) : Int) - cnt s)
  have h2 := u16_toNat ((stringWidth f s : Int) - cnt s)
  have h3 := u16_toNat n
  omega

theorem startsExtending_append_spaces {s : GoString} (h : ¬ StartsExtending s) (n : Nat) :
    ¬ StartsExtending (s ++ spaces n) := by
  rintro ⟨r, hr, hc⟩
  rw [runes_append _ _ (startsClean_ascii (printable_spaces n))] at hr
  by_cases hs : runes s = []
  · rw [hs, List.nil_append, runes_printable (printable_spaces n)] at hr
    have hm := List.mem_of_mem_head? hr
    have : r = 0x20 := by
      obtain ⟨b, hb, rfl⟩ := List.mem_map.mp hm
      rw [spaces, List.mem_replicate] at hb
      rw [hb.2]; rfl
    rw [this, classOf_ascii 0x20 (by omega) (by omega)] at hc
    simp at hc
  · obtain ⟨x, xs, hx⟩ := List.exists_cons_of_ne_nil hs
    rw [hx] at hr
    exact h ⟨r, by rw [hx]; exact hr, hc⟩

theorem toNat_sub_lt {a b : UInt16} (h : a < b) : (b - a).toNat = b.toNat - a.toNat := by
  rw [UInt16.lt_iff_toNat_lt] at h
  rw [UInt16.toNat_sub_of_le]
  rw [UInt16.le_iff_toNat_le]; omega

theorem add_sub_toNat {a b : UInt16} (h : a < b) : a + UInt16.ofNat (b.toNat - a.toNat) = b := by
  rw [UInt16.lt_iff_toNat_lt] at h
  rw [← UInt16.toNat_inj, UInt16.toNat_add, UInt16.toNat_ofNat']
  have := b.toNat_lt
  omega

theorem alignmentLeft_eq (f : Flags) (s : GoString) (w : UInt16) :
    alignmentLeft f s w = s ++ spaces (w.toNat - (visualWidth f s).toNat) := by
  unfold alignmentLeft
  dsimp only
  split
  · rename_i h
    rw [ge_iff_le, UInt16.le_iff_toNat_le] at h
    rw [Nat.sub_eq_zero_of_le h]; simp [spaces]
  · rename_i h
    rw [toNat_sub_lt (by rw [ge_iff_le, UInt16.not_le] at h; exact h)]

theorem alignmentRight_eq (f : Flags) (s : GoString) (w : UInt16) :
    alignmentRight f s w = spaces (w.toNat - (visualWidth f s).toNat) ++ s := by
  unfold alignmentRight
  dsimp only
  split
  · rename_i h
    rw [ge_iff_le, UInt16.le_iff_toNat_le] at h
    rw [Nat.sub_eq_zero_of_le h]; simp [spaces]
  · rename_i h
    rw [toNat_sub_lt (by rw [ge_iff_le, UInt16.not_le] at h; exact h)]

theorem alignmentCenter_eq (f : Flags) (s : GoString) (w : UInt16) :
    alignmentCenter f s w = spaces ((w.toNat - (visualWidth f s).toNat + 1) / 2) ++ s ++
      spaces ((w.toNat - (visualWidth f s).toNat) / 2) := by
  unfold alignmentCenter
  dsimp only
  split
  · rename_i h
    rw [ge_iff_le, UInt16.le_iff_toNat_le] at h
    rw [Nat.sub_eq_zero_of_le h]; simp [spaces]
  · rename_i h
    rw [ge_iff_le, UInt16.not_le] at h
    rw [toNat_sub_lt h]
    rw [UInt16.lt_iff_toNat_lt] at h
    have hd : (((w.toNat - (visualWidth f s).toNat : Nat) : Int) - 1).tdiv 2
        = (((w.toNat - (visualWidth f s).toNat : Nat) : Int) - 1) / 2 := Int.tdiv_eq_ediv_of_nonneg (by omega)
    rw [hd]
    congr 2
    · congr 2; omega
    · omega

end GoTable
