import Verif.Proofs.Segment
import Verif.Spec.UTF8
/-! The decoder against the encoding. -/

namespace GoTable
open Spec

theorem toNat_ofNat_lt {n : Nat} (h : n < 256) : (UInt8.ofNat n).toNat = n := by
  simp [UInt8.toNat_ofNat']; omega

theorem ofNat_toNat' (b : UInt8) (n : Nat) (h : n = b.toNat) : b = UInt8.ofNat n := by
  subst h; simp

/-- Encodings decode to themselves, whatever follows. -/
theorem decodeRune_encode (r : Nat) (h : Scalar r) (t : GoString) :
    decodeRune (encode r ++ t) = (r, (encode r).length) := by
  unfold Scalar at h
  unfold encode
  by_cases h1 : r < 0x80
  · rw [if_pos h1]
    rw [List.cons_append, decodeRune_ascii _ _ (by rw [toNat_ofNat_lt (by omega)]; exact h1),
      toNat_ofNat_lt (by omega)]
    rfl
  rw [if_neg h1]
  by_cases h2 : r < 0x800
  · rw [if_pos h2]
    have e0 := toNat_ofNat_lt (n := 0xC0 + r / 64) (by omega)
    have e1 := toNat_ofNat_lt (n := 0x80 + r % 64) (by omega)
    generalize UInt8.ofNat (0xC0 + r / 64) = b0 at *
    generalize UInt8.ofNat (0x80 + r % 64) = b1 at *
    simp only [List.cons_append, List.nil_append, decodeRune]
    rw [if_neg (by omega), if_neg (by omega), if_pos (by omega), if_pos (by simp [isCont]; omega)]
    refine Prod.ext ?_ rfl
    show _ = r
    dsimp only
    omega
  rw [if_neg h2]
  by_cases h3 : r < 0x10000
  · rw [if_pos h3]
    have e0 := toNat_ofNat_lt (n := 0xE0 + r / 4096) (by omega)
    have e1 := toNat_ofNat_lt (n := 0x80 + r / 64 % 64) (by omega)
    have e2 := toNat_ofNat_lt (n := 0x80 + r % 64) (by omega)
    generalize UInt8.ofNat (0xE0 + r / 4096) = b0 at *
    generalize UInt8.ofNat (0x80 + r / 64 % 64) = b1 at *
    generalize UInt8.ofNat (0x80 + r % 64) = b2 at *
    simp only [List.cons_append, List.nil_append, decodeRune]
    rw [if_neg (by omega), if_neg (by omega), if_neg (by omega), if_pos (by omega), if_pos]
    · refine Prod.ext ?_ rfl
      show _ = r
      dsimp only
      omega
    · refine ⟨?_, ?_, ?_⟩
      · split <;> omega
      · split <;> omega
      · simp [isCont]; omega
  · rw [if_neg h3]
    have e0 := toNat_ofNat_lt (n := 0xF0 + r / 262144) (by omega)
    have e1 := toNat_ofNat_lt (n := 0x80 + r / 4096 % 64) (by omega)
    have e2 := toNat_ofNat_lt (n := 0x80 + r / 64 % 64) (by omega)
    have e3 := toNat_ofNat_lt (n := 0x80 + r % 64) (by omega)
    generalize UInt8.ofNat (0xF0 + r / 262144) = b0 at *
    generalize UInt8.ofNat (0x80 + r / 4096 % 64) = b1 at *
    generalize UInt8.ofNat (0x80 + r / 64 % 64) = b2 at *
    generalize UInt8.ofNat (0x80 + r % 64) = b3 at *
    simp only [List.cons_append, List.nil_append, decodeRune]
    rw [if_neg (by omega), if_neg (by omega), if_neg (by omega), if_neg (by omega), if_pos (by omega),
      if_pos]
    · refine Prod.ext ?_ rfl
      show _ = r
      dsimp only
      omega
    · refine ⟨?_, ?_, ?_, ?_⟩
      · split <;> omega
      · split <;> omega
      · simp [isCont]; omega
      · simp [isCont]; omega

/-- A successful decode has read an encoding. -/
theorem decodeRune_prefix (s : GoString) (hs : s ≠ []) :
    decodeRune s = (runeError, 1) ∨
    (Scalar (decodeRune s).1 ∧ (decodeRune s).2 = (encode (decodeRune s).1).length ∧
      encode (decodeRune s).1 <+: s) := by
  cases s with
  | nil => exact absurd rfl hs
  | cons b0 t =>
    have hb0 := b0.toNat_lt
    unfold decodeRune
    dsimp only
    split
    · rename_i h1
      right
      unfold Scalar encode
      dsimp only
      rw [if_pos h1]
      refine ⟨by omega, rfl, ?_⟩
      simp
    split
    · left; rfl
    split
    · split
      · rename_i h1 h2 h3 b1 t'
        have hb1 := b1.toNat_lt
        split
        · rename_i hc
          simp only [isCont, Bool.and_eq_true, decide_eq_true_eq] at hc
          right
          unfold Scalar encode
          dsimp only
          rw [if_neg (by omega), if_pos (by omega)]
          refine ⟨by omega, rfl, ?_⟩
          rw [← ofNat_toNat' b0 _ (by omega), ← ofNat_toNat' b1 _ (by omega)]
          exact ⟨t', rfl⟩
        · left; rfl
      · left; rfl
    split
    · split
      · rename_i h1 h2 h3 h4 b1 b2 t'
        have hb1 := b1.toNat_lt
        have hb2 := b2.toNat_lt
        generalize hlo : (if b0.toNat = 0xE0 then 0xA0 else 0x80 : Nat) = lo
        generalize hhi : (if b0.toNat = 0xED then 0x9F else 0xBF : Nat) = hi
        split
        · rename_i hc
          simp only [isCont, Bool.and_eq_true, decide_eq_true_eq] at hc
          have hlo' : 0x80 ≤ lo ∧ (b0.toNat = 0xE0 → lo = 0xA0) := by split at hlo <;> omega
          have hhi' : hi ≤ 0xBF ∧ (b0.toNat = 0xED → hi = 0x9F) := by split at hhi <;> omega
          right
          unfold Scalar encode
          dsimp only
          rw [if_neg (by omega), if_neg (by omega), if_pos (by omega)]
          refine ⟨by omega, rfl, ?_⟩
          rw [← ofNat_toNat' b0 _ (by omega), ← ofNat_toNat' b1 _ (by omega),
            ← ofNat_toNat' b2 _ (by omega)]
          exact ⟨t', rfl⟩
        · left; rfl
      · left; rfl
    split
    · split
      · rename_i h1 h2 h3 h4 h5 b1 b2 b3 t'
        have hb1 := b1.toNat_lt
        have hb2 := b2.toNat_lt
        have hb3 := b3.toNat_lt
        generalize hlo : (if b0.toNat = 0xF0 then 0x90 else 0x80 : Nat) = lo
        generalize hhi : (if b0.toNat = 0xF4 then 0x8F else 0xBF : Nat) = hi
        split
        · rename_i hc
          simp only [isCont, Bool.and_eq_true, decide_eq_true_eq] at hc
          have hlo' : 0x80 ≤ lo ∧ (b0.toNat = 0xF0 → lo = 0x90) := by split at hlo <;> omega
          have hhi' : hi ≤ 0xBF ∧ (b0.toNat = 0xF4 → hi = 0x8F) := by split at hhi <;> omega
          right
          unfold Scalar encode
          dsimp only
          rw [if_neg (by omega), if_neg (by omega), if_neg (by omega)]
          refine ⟨by omega, rfl, ?_⟩
          rw [← ofNat_toNat' b0 _ (by omega), ← ofNat_toNat' b1 _ (by omega),
            ← ofNat_toNat' b2 _ (by omega), ← ofNat_toNat' b3 _ (by omega)]
          exact ⟨t', rfl⟩
        · left; rfl
      · left; rfl
    · left; rfl

theorem encode_length_pos (r : Nat) : 0 < (encode r).length := by
  unfold encode; repeat' split
  all_goals simp

theorem tokens_encode_append (r : Nat) (h : Scalar r) (t : GoString) :
    tokens (encode r ++ t) = (r, (encode r).length) :: tokens t := by
  have hne : encode r ++ t ≠ [] := by
    intro h0
    have := congrArg List.length h0
    have h2 := encode_length_pos r
    rw [List.length_append, List.length_nil] at this
    omega
  rw [tokens_of_ne_nil hne, decodeRune_encode r h]
  simp

theorem tokens_valid (rs : List Nat) (h : ∀ r ∈ rs, Scalar r) :
    tokens ((rs.map encode).flatten) = rs.map fun r => (r, (encode r).length) := by
  induction rs with
  | nil => simp
  | cons r rs ih =>
    rw [List.map_cons, List.flatten_cons, tokens_encode_append r (h r (by simp)),
      ih (fun x hx => h x (List.mem_cons_of_mem _ hx))]
    rfl

/-- In valid UTF-8 no byte is decoded as an error. -/
theorem valid_no_error {s : GoString} (h : ValidUTF8 s) : (runeError, 1) ∉ tokens s := by
  obtain ⟨rs, h1, rfl⟩ := h
  rw [tokens_valid rs h1]
  intro hm
  obtain ⟨r, _, hr⟩ := List.mem_map.mp hm
  have h2 := (Prod.mk.inj hr).1
  have h3 := (Prod.mk.inj hr).2
  subst h2
  revert h3
  decide

/-- An encoding does not start with a continuation byte. -/
theorem startsClean_encode (r : Nat) (h : Scalar r) (t : GoString) : startsClean (encode r ++ t) = true := by
  unfold Scalar at h
  unfold encode
  repeat' split
  all_goals
    simp only [List.cons_append, startsClean, isCont]
    rw [toNat_ofNat_lt (by omega)]
    simp
    omega

theorem startsClean_valid {s : GoString} (h : ValidUTF8 s) : startsClean s = true := by
  obtain ⟨rs, h1, rfl⟩ := h
  cases rs with
  | nil => rfl
  | cons r rs => exact startsClean_encode r (h1 r (by simp)) _

/-- Valid UTF-8 read as runes gives back what was encoded. -/
theorem runes_valid (rs : List Nat) (h : ∀ r ∈ rs, Scalar r) :
    runes ((rs.map encode).flatten) = rs := by
  rw [runes, tokens_valid rs h, List.map_map]
  conv_rhs => rw [← List.map_id rs]
  rfl

end GoTable
