import Verif.Model.GoString
import Mathlib.Tactic.ByContra
/-! Lemmas about the UTF-8 decoder. -/

namespace GoTable

@[simp] theorem tokens_nil : tokens [] = [] := by unfold tokens; simp

theorem tokens_of_ne_nil {s : GoString} (h : s ≠ []) :
    tokens s = decodeRune s :: tokens (s.drop (decodeRune s).2) := by
  rw [tokens]; simp [h]

theorem tokens_eq_nil {s : GoString} : tokens s = [] ↔ s = [] := by
  constructor
  · intro h
    by_contra hn
    rw [tokens_of_ne_nil hn] at h
    simp at h
  · rintro rfl; simp

/-- What a decoded rune of a given size looks like. -/
theorem decodeRune_shape (s : GoString) (h : s ≠ []) :
    ((decodeRune s).2 = 1 ∧ ((decodeRune s).1 < 0x80 ∨ (decodeRune s).1 = 0xFFFD)) ∨
    ((decodeRune s).2 = 2 ∧ 0x80 ≤ (decodeRune s).1 ∧ (decodeRune s).1 < 0x800) ∨
    ((decodeRune s).2 = 3 ∧ 0x800 ≤ (decodeRune s).1 ∧ (decodeRune s).1 < 0x10000 ∧
      ((decodeRune s).1 < 0xD800 ∨ 0xDFFF < (decodeRune s).1)) ∨
    ((decodeRune s).2 = 4 ∧ 0x10000 ≤ (decodeRune s).1 ∧ (decodeRune s).1 ≤ 0x10FFFF) := by
  cases s with
  | nil => exact absurd rfl h
  | cons b t =>
    unfold decodeRune
    have hb := b.toNat_lt
    dsimp only
    split
    · simp; omega
    split
    · simp
    split
    · split
      · rename_i b1 _
        split
        · rename_i hc
          simp only [isCont, Bool.and_eq_true, decide_eq_true_eq] at hc
          right; left; dsimp only; omega
        · simp
      · simp
    split
    · split
      · rename_i b1 b2 _
        generalize hlo : (if b.toNat = 0xE0 then 0xA0 else 0x80 : Nat) = lo
        generalize hhi : (if b.toNat = 0xED then 0x9F else 0xBF : Nat) = hi
        split
        · rename_i hc
          simp only [isCont, Bool.and_eq_true, decide_eq_true_eq] at hc
          right; right; left
          dsimp only
          split at hlo <;> split at hhi <;> omega
        · simp
      · simp
    split
    · split
      · rename_i b1 b2 b3 _
        generalize hlo : (if b.toNat = 0xF0 then 0x90 else 0x80 : Nat) = lo
        generalize hhi : (if b.toNat = 0xF4 then 0x8F else 0xBF : Nat) = hi
        split
        · rename_i hc
          simp only [isCont, Bool.and_eq_true, decide_eq_true_eq] at hc
          right; right; right
          dsimp only
          split at hlo <;> split at hhi <;> omega
        · simp
      · simp
    · simp

theorem decodeRune_le (s : GoString) : (decodeRune s).1 ≤ 0x10FFFF := by
  by_cases h : s = []
  · subst h; simp [decodeRune, runeError]
  · have := decodeRune_shape s h; omega

/-- An ASCII byte decodes to itself. -/
theorem decodeRune_ascii (b : UInt8) (t : GoString) (h : b.toNat < 0x80) :
    decodeRune (b :: t) = (b.toNat, 1) := by
  unfold decodeRune; simp [h]

/-- If the rune is below 0x80 then it was one ASCII byte. -/
theorem decodeRune_lt_80 (b : UInt8) (t : GoString) (h : (decodeRune (b :: t)).1 < 0x80) :
    b.toNat < 0x80 ∧ decodeRune (b :: t) = (b.toNat, 1) := by
  by_cases hb : b.toNat < 0x80
  · exact ⟨hb, decodeRune_ascii b t hb⟩
  · exfalso
    have h2 := decodeRune_shape (b :: t) (by simp)
    have h3 : (decodeRune (b :: t)).2 = 1 → (decodeRune (b :: t)).1 = 0xFFFD := by
      unfold decodeRune
      dsimp only
      rw [if_neg hb]
      repeat' split
      all_goals simp
    omega

private theorem ite_err {P : Prop} [Decidable P] {x m k e : Nat} (hk : k < m)
    (h : (if P then (x, m) else (e, 1)).2 ≤ k) : (e, 1) = if P then (x, m) else (e, 1) := by
  split at h
  · simp at h; omega
  · rename_i hc; rw [if_neg hc]

/-- The bytes after the decoded prefix do not matter. -/
theorem decodeRune_take (s : GoString) (k : Nat) (h : (decodeRune s).2 ≤ k) (hs : s ≠ []) :
    decodeRune (s.take k) = decodeRune s := by
  have h1 := decodeRune_size s hs
  obtain ⟨k, rfl⟩ : ∃ j, k = j + 1 := ⟨k - 1, by omega⟩
  cases s with
  | nil => exact absurd rfl hs
  | cons b0 t =>
    rw [List.take_succ_cons]
    revert h
    unfold decodeRune
    dsimp only
    by_cases c1 : b0.toNat < 0x80
    · simp [c1]
    by_cases c2 : b0.toNat < 0xC2
    · simp [c1, c2]
    by_cases c3 : b0.toNat < 0xE0
    · simp only [c1, c2, c3, if_true, if_false]
      rcases t with _ | ⟨b1, t⟩
      · simp
      · rcases k with _ | k
        · intro h
          simp only [List.take_zero]
          dsimp only at h ⊢
          exact ite_err (by omega) h
        · simp
    by_cases c4 : b0.toNat < 0xF0
    · simp only [c1, c2, c3, c4, if_true, if_false]
      rcases t with _ | ⟨b1, _ | ⟨b2, t⟩⟩
      · simp
      · intro _; rcases k with _ | k <;> simp
      · rcases k with _ | _ | k
        · intro h
          simp only [List.take_zero]
          dsimp only at h ⊢
          exact ite_err (by omega) h
        · intro h
          simp only [List.take_succ_cons, List.take_zero]
          dsimp only at h ⊢
          exact ite_err (by omega) h
        · simp
    by_cases c5 : b0.toNat < 0xF5
    · simp only [c1, c2, c3, c4, c5, if_true, if_false]
      rcases t with _ | ⟨b1, _ | ⟨b2, _ | ⟨b3, t⟩⟩⟩
      · simp
      · intro _; rcases k with _ | k <;> simp
      · intro _; rcases k with _ | _ | k <;> simp
      · rcases k with _ | _ | _ | k
        · intro h
          simp only [List.take_zero]
          dsimp only at h ⊢
          exact ite_err (by omega) h
        · intro h
          simp only [List.take_succ_cons, List.take_zero]
          dsimp only at h ⊢
          exact ite_err (by omega) h
        · intro h
          simp only [List.take_succ_cons, List.take_zero]
          dsimp only at h ⊢
          exact ite_err (by omega) h
        · simp
    · simp [c1, c2, c3, c4, c5]

/-- First byte is not a continuation byte (true of the empty string). -/
def startsClean : GoString → Bool
  | [] => true
  | b :: _ => !isCont b

/-- Appending a string that does not start with a continuation byte does not change how what stands
before it is decoded. -/
theorem decodeRune_append (a b : GoString) (ha : a ≠ []) (hb : startsClean b) :
    decodeRune (a ++ b) = decodeRune a := by
  cases a with
  | nil => exact absurd rfl ha
  | cons b0 t =>
    rw [List.cons_append]
    have hcont : ∀ c r, b = c :: r → isCont c = false := by
      intro c r h; subst h; simpa [startsClean] using hb
    have hrange : ∀ c r, b = c :: r → c.toNat < 0x80 ∨ 0xBF < c.toNat := by
      intro c r h
      have := hcont c r h
      simp only [isCont, Bool.and_eq_false_iff, decide_eq_false_iff_not] at this
      omega
    unfold decodeRune
    dsimp only
    by_cases c1 : b0.toNat < 0x80
    · simp [c1]
    by_cases c2 : b0.toNat < 0xC2
    · simp [c1, c2]
    by_cases c3 : b0.toNat < 0xE0
    · simp only [c1, c2, c3, if_true, if_false]
      rcases t with _ | ⟨b1, t⟩
      · rcases b with _ | ⟨c, r⟩
        · simp
        · simp [hcont c r rfl]
      · simp
    by_cases c4 : b0.toNat < 0xF0
    · simp only [c1, c2, c3, c4, if_true, if_false]
      rcases t with _ | ⟨b1, _ | ⟨b2, t⟩⟩
      · rcases b with _ | ⟨c, _ | ⟨c2, r⟩⟩
        · simp
        · simp
        · have := hrange _ _ rfl
          simp only [List.nil_append]
          rw [if_neg]
          rintro ⟨h1, h2, _⟩
          split at h1 <;> split at h2 <;> omega
      · rcases b with _ | ⟨c, r⟩
        · simp
        · simp [hcont c r rfl]
      · simp
    by_cases c5 : b0.toNat < 0xF5
    · simp only [c1, c2, c3, c4, c5, if_true, if_false]
      rcases t with _ | ⟨b1, _ | ⟨b2, _ | ⟨b3, t⟩⟩⟩
      · rcases b with _ | ⟨c, _ | ⟨c2, _ | ⟨c3, r⟩⟩⟩
        · simp
        · simp
        · simp
        · have := hrange _ _ rfl
          simp only [List.nil_append]
          rw [if_neg]
          rintro ⟨h1, h2, _⟩
          split at h1 <;> split at h2 <;> omega
      · rcases b with _ | ⟨c, _ | ⟨c2, r⟩⟩
        · simp
        · simp
        · simp [hcont _ _ rfl]
      · rcases b with _ | ⟨c, r⟩
        · simp
        · simp [hcont c r rfl]
      · simp
    · simp [c1, c2, c3, c4, c5]

theorem tokens_append (a b : GoString) (hb : startsClean b) :
    tokens (a ++ b) = tokens a ++ tokens b := by
  induction hn : a.length using Nat.strongRecOn generalizing a with
  | _ n ih =>
    by_cases ha : a = []
    · subst ha; simp
    · rw [tokens_of_ne_nil (s := a ++ b) (by simp [ha]), decodeRune_append a b ha hb,
        tokens_of_ne_nil ha, List.cons_append]
      have hsz := decodeRune_size a ha
      rw [List.drop_append_of_le_length hsz.2]
      rw [ih _ (by subst hn; simp; omega) (a.drop (decodeRune a).2) rfl]

theorem runes_append (a b : GoString) (hb : startsClean b) : runes (a ++ b) = runes a ++ runes b := by
  simp [runes, tokens_append a b hb]

/-- The sizes of the tokens add up to the length. -/
theorem tokens_sizes (s : GoString) : ((tokens s).map Prod.snd).sum = s.length := by
  induction hn : s.length using Nat.strongRecOn generalizing s with
  | _ n ih =>
    by_cases hs : s = []
    · subst hs; simp at hn; simp [← hn]
    · rw [tokens_of_ne_nil hs, List.map_cons, List.sum_cons]
      have hsz := decodeRune_size s hs
      rw [ih (s.drop (decodeRune s).2).length (by simp; omega) _ rfl]
      simp; omega

theorem mem_tokens (s : GoString) (t : Nat × Nat) (h : t ∈ tokens s) :
    (t.2 = 1 ∧ (t.1 < 0x80 ∨ t.1 = 0xFFFD)) ∨ (t.2 = 2 ∧ 0x80 ≤ t.1 ∧ t.1 < 0x800) ∨
    (t.2 = 3 ∧ 0x800 ≤ t.1 ∧ t.1 < 0x10000 ∧ (t.1 < 0xD800 ∨ 0xDFFF < t.1)) ∨
    (t.2 = 4 ∧ 0x10000 ≤ t.1 ∧ t.1 ≤ 0x10FFFF) := by
  induction hn : s.length using Nat.strongRecOn generalizing s with
  | _ n ih =>
    by_cases hs : s = []
    · subst hs; simp at h
    · rw [tokens_of_ne_nil hs, List.mem_cons] at h
      rcases h with rfl | h
      · exact decodeRune_shape s hs
      · have hsz := decodeRune_size s hs
        exact ih _ (by subst hn; simp; omega) _ h rfl

theorem mem_runes_le (s : GoString) (r : Nat) (h : r ∈ runes s) : r ≤ 0x10FFFF := by
  simp only [runes, List.mem_map] at h
  obtain ⟨t, ht, rfl⟩ := h
  have := mem_tokens s t ht
  omega

theorem tokens_ascii_cons (b : UInt8) (t : GoString) (h : b.toNat < 0x80) :
    tokens (b :: t) = (b.toNat, 1) :: tokens t := by
  rw [tokens_of_ne_nil (by simp), decodeRune_ascii b t h]; simp

theorem runes_ascii_cons (b : UInt8) (t : GoString) (h : b.toNat < 0x80) :
    runes (b :: t) = b.toNat :: runes t := by
  simp [runes, tokens_ascii_cons b t h]

theorem runes_ascii (s : GoString) (h : ∀ b ∈ s, b.toNat < 0x80) : runes s = s.map UInt8.toNat := by
  induction s with
  | nil => simp [runes]
  | cons b t ih =>
    rw [runes_ascii_cons b t (h b (by simp)), ih (fun b hb => h b (by simp [hb]))]
    simp

theorem startsClean_ascii_cons (b : UInt8) (t : GoString) (h : b.toNat < 0x80) :
    startsClean (b :: t) = true := by
  simp [startsClean, isCont]; omega

@[simp] theorem length_spaces (n : Nat) : (spaces n).length = n := by simp [spaces]

theorem startsClean_spaces_append (n : Nat) (h : 0 < n) (t : GoString) :
    startsClean (spaces n ++ t) = true := by
  obtain ⟨k, rfl⟩ : ∃ k, n = k + 1 := ⟨n - 1, by omega⟩
  rfl

@[simp] theorem runes_spaces (n : Nat) : runes (spaces n) = List.replicate n 0x20 := by
  rw [runes_ascii]
  · simp [spaces]
  · intro b hb
    simp [spaces] at hb
    simp [hb.2]

end GoTable
