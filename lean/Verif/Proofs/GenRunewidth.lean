import Verif.Spec.Ranges
import Verif.Model.GenRunewidth
import Verif.Spec.GenRunewidth
import Verif.Proofs.GenProperties
import Verif.Proofs.Generate
/-! The runewidth table generator. -/

namespace GoTable
open Spec

theorem hexNumber_eq (s : GoString) (h : ∀ b ∈ s, HexDigit b) : parseHex s = hexNumber s := by
  have hd : ∀ b, HexDigit b → hexValue b = hexDigitValue b := by
    intro b hb
    unfold HexDigit at hb
    unfold hexValue hexDigitValue
    rcases hb with hb | hb
    · rw [if_pos hb, if_pos hb.2]
    · rw [if_neg (by omega), if_pos hb, if_neg (by omega)]
      omega
  have key : ∀ (s : GoString) (n : Nat), (∀ b ∈ s, HexDigit b) →
      s.foldl (fun n b => n * 16 + hexValue b) n = n * 16 ^ s.length + hexNumber s := by
    intro s
    induction s with
    | nil => simp [hexNumber]
    | cons b t ih =>
      intro n h
      rw [List.foldl_cons, ih _ (fun c hc => h c (by simp [hc])), hexNumber, hd b (h b (by simp)), List.length_cons,
        Nat.pow_succ, Nat.add_mul, Nat.mul_assoc, Nat.mul_comm 16, Nat.add_assoc]
  rw [parseHex, key s 0 h]
  simp

theorem HexDigit_any {b : UInt8} (h : HexDigit b) : isHexAny b = true := by
  unfold HexDigit at h
  simp only [isHexAny, Bool.or_eq_true, Bool.and_eq_true, decide_eq_true_eq]
  tauto

theorem skipRunes_none (p : Nat → Bool) (b : UInt8) (t : GoString) (hb : b.toNat < 0x80) (h : p b.toNat = false) :
    skipRunes p (b :: t) = b :: t := by
  rw [skipRunes, dif_neg (by simp), decodeRune_ascii b t hb]
  simp [h]

theorem fmtSkipSpace_none (b : UInt8) (t : GoString) (h1 : 0x21 ≤ b.toNat) (h2 : b.toNat ≤ 0x7E) :
    fmtSkipSpace (b :: t) = some (b :: t) := by
  unfold fmtSkipSpace
  rw [skipRunes_none _ b t (by omega) (by simp [isFmtSpace]; omega)]
  dsimp only
  rw [if_neg]
  simp only [List.head?_cons, Option.some.injEq]
  rintro rfl
  simp at h1

theorem HexDigit.range {b : UInt8} (h : HexDigit b) : 0x30 ≤ b.toNat ∧ b.toNat ≤ 0x46 ∧ b ≠ 0x2B ∧ b ≠ 0x23 ∧ b ≠ 0x2D := by
  unfold HexDigit at h
  refine ⟨by omega, by omega, ?_, ?_, ?_⟩ <;> (rintro rfl; simp at h)

/-- `%x` on digits followed by something else. -/
theorem fmtScanHex_digits (d : GoString) (n : Nat) (s : GoString) (hd : NumberText d n)
    (hs : ∀ b, s.head? = some b → isHexAny b = false) : fmtScanHex (d ++ s) = some ((n : Int), s) := by
  obtain ⟨hne, hdig, hn, hlt⟩ := hd
  cases d with
  | nil => exact absurd rfl hne
  | cons b d =>
    have hb := HexDigit.range (hdig b (by simp))
    unfold fmtScanHex
    rw [List.cons_append, fmtSkipSpace_none b (d ++ s) (by omega) (by omega)]
    dsimp only
    have hp : ((b :: (d ++ s)).head? = some 0x2B) = False := by simpa using hb.2.2.1
    have hm : ((b :: (d ++ s)).head? = some 0x2D) = False := by simpa using hb.2.2.2.2
    simp only [hp, hm, or_false, if_false]
    rw [← List.cons_append]
    have h1 : ((b :: d) ++ s).takeWhile isHexAny = b :: d := by
      rw [List.takeWhile_append_of_pos (fun x hx => HexDigit_any (hdig x hx))]
      cases s with
      | nil => simp
      | cons c s => rw [List.takeWhile_cons_of_neg (by simp [hs c rfl])]; simp
    have h2 : ((b :: d) ++ s).dropWhile isHexAny = s := by
      rw [List.dropWhile_append_of_pos (fun x hx => HexDigit_any (hdig x hx))]
      cases s with
      | nil => simp
      | cons c s => rw [List.dropWhile_cons_of_neg (by simp [hs c rfl])]
    rw [h1, h2, hexNumber_eq _ hdig, hn, if_neg (by simp), if_pos (by omega)]

theorem fmtLiteral_append (a s : GoString) : fmtLiteral a (a ++ s) = some s := by
  unfold fmtLiteral
  rw [if_pos (by rw [List.isPrefixOf_iff_prefix]; exact List.prefix_append _ _), List.drop_left]

theorem fmtLiteral_ne (a b : UInt8) (l s : GoString) (h : a ≠ b) : fmtLiteral (a :: l) (b :: s) = none := by
  unfold fmtLiteral
  rw [if_neg]
  simp [List.isPrefixOf, h]

theorem skipRunes_append (p : Nat → Bool) (c s : GoString) (hc : ∀ b ∈ c, b.toNat < 0x80 ∧ p b.toNat = true) :
    skipRunes p (c ++ s) = skipRunes p s := by
  induction c with
  | nil => rfl
  | cons b c ih =>
    obtain ⟨h1, h2⟩ := hc b (by simp)
    rw [List.cons_append, skipRunes, dif_neg (by simp), decodeRune_ascii _ _ h1]
    simp only [h2, if_true]
    exact ih fun x hx => hc x (by simp [hx])

theorem fmtValid_ascii {c : GoString} (h : ∀ b ∈ c, b.toNat < 0x80) : fmtValid c = c := by
  induction c with
  | nil => rw [fmtValid]; simp
  | cons b c ih =>
    have hb := h b List.mem_cons_self
    rw [fmtValid, dif_neg (by simp), decodeRune_ascii b c hb, if_neg (by simp; omega)]
    simp [ih fun x hx => h x (List.mem_cons_of_mem _ hx)]

theorem fmtScanString_word (c s : GoString) (hne : c ≠ []) (hc : ∀ b ∈ c, 0x21 ≤ b.toNat ∧ b.toNat ≤ 0x7E)
    (hs : EndOrSpace s) : fmtScanString (c ++ s) = some (c, s) := by
  have hsk : skipRunes (fun r => !isFmtSpace r) (c ++ s) = s := by
    rw [skipRunes_append _ c s (fun b hb => ⟨by have := hc b hb; omega, by
      have := hc b hb
      simp [isFmtSpace]; omega⟩)]
    rcases hs with rfl | ⟨t, rfl⟩
    · rw [skipRunes]; simp
    · exact skipRunes_none _ _ _ (by decide) (by decide)
  unfold fmtScanString
  cases c with
  | nil => exact absurd rfl hne
  | cons b c =>
    have hb := hc b (by simp)
    rw [List.cons_append, fmtSkipSpace_none b _ hb.1 hb.2]
    dsimp only
    rw [← List.cons_append, hsk, if_neg (by simp), before_append,
      fmtValid_ascii fun x hx => by have := hc x hx; omega]

theorem fmtSpace_of {s : GoString} (h : EndOrSpace s) : fmtSpace s = true := by
  rcases h with rfl | ⟨t, rfl⟩
  · rfl
  · simp [fmtSpace, decodeRune_ascii 0x20 t (by decide), isFmtSpace]

theorem endOrSpace_hex {s : GoString} (h : EndOrSpace s) : ∀ b, s.head? = some b → isHexAny b = false := by
  rcases h with rfl | ⟨t, rfl⟩
  · simp
  · intro b hb
    simp only [List.head?_cons, Option.some.injEq] at hb
    subst hb; decide

theorem range_head {s : GoString} {lo hi : Nat} (h : RangeText s lo hi) : ∃ b t, s = b :: t ∧ HexDigit b := by
  have key : ∀ {d n}, NumberText d n → ∃ b t, d = b :: t ∧ HexDigit b := by
    intro d n hd
    obtain ⟨hne, hdig, _⟩ := hd
    cases d with
    | nil => exact absurd rfl hne
    | cons b t => exact ⟨b, t, rfl, hdig b (by simp)⟩
  rcases h with ⟨h, _⟩ | ⟨d, e, rfl, hd, _⟩
  · exact key h
  · obtain ⟨b, t, rfl, hb⟩ := key hd
    exact ⟨b, _, rfl, hb⟩

theorem not_comment {s : GoString} {lo hi : Nat} (h : RangeText s lo hi) (t : GoString) :
    (lit "#").isPrefixOf (s ++ t) = false := by
  obtain ⟨b, u, rfl, hb⟩ := range_head h
  rw [show lit "#" = [0x23] by decide +kernel]
  simpa [List.isPrefixOf] using (HexDigit.range hb).2.2.2.1.symm

theorem scanWidthLine_some {line : GoString} {lo hi : Nat} {cls : GoString} (h : WidthLine line lo hi cls) :
    scanWidthLine line = some ((lo : Int), (hi : Int), cls) := by
  obtain ⟨range, rest, rfl, hr, hne, hc, hrest⟩ := h
  have hnc := not_comment hr ([0x3B] ++ cls ++ rest)
  have ed : lit ".." = [0x2E, 0x2E] := by decide +kernel
  have es : lit ";" = [0x3B] := by decide +kernel
  unfold scanWidthLine
  simp only [List.append_assoc] at hnc ⊢
  rw [hnc]
  simp only [Bool.false_eq_true, if_false]
  rcases hr with ⟨hd, heq⟩ | ⟨d, e, rfl, hd, he⟩
  · subst hi
    have h1 : fmtScanHex (range ++ ([0x3B] ++ (cls ++ rest))) = some ((lo : Int), [0x3B] ++ (cls ++ rest)) :=
      fmtScanHex_digits range lo _ hd (by simp; decide)
    have hn : sscanfRangeClass (range ++ ([0x3B] ++ (cls ++ rest))) = none := by
      unfold sscanfRangeClass
      rw [h1, ed]
      simp only [Option.bind_eq_bind, Option.bind_some, List.cons_append, List.nil_append]
      rw [fmtLiteral_ne _ _ _ _ (by decide)]
      rfl
    have hsome : sscanfClass (range ++ ([0x3B] ++ (cls ++ rest))) = some ((lo : Int), cls) := by
      unfold sscanfClass
      rw [h1, es]
      simp only [Option.bind_eq_bind, Option.bind_some]
      rw [fmtLiteral_append]
      simp only [Option.bind_some]
      rw [fmtScanString_word cls rest hne hc hrest]
      simp [fmtSpace_of hrest]
    rw [hn, hsome]
  · have h1 : fmtScanHex (d ++ ([0x2E, 0x2E] ++ (e ++ ([0x3B] ++ (cls ++ rest))))) =
        some ((lo : Int), [0x2E, 0x2E] ++ (e ++ ([0x3B] ++ (cls ++ rest)))) := fmtScanHex_digits d lo _ hd (by simp; decide)
    have h2 : fmtScanHex (e ++ ([0x3B] ++ (cls ++ rest))) = some ((hi : Int), [0x3B] ++ (cls ++ rest)) :=
      fmtScanHex_digits e hi _ he (by simp; decide)
    have hsome : sscanfRangeClass (d ++ ([0x2E, 0x2E] ++ (e ++ ([0x3B] ++ (cls ++ rest))))) = some ((lo : Int), (hi : Int), cls) := by
      unfold sscanfRangeClass
      rw [h1, ed, es]
      simp only [Option.bind_eq_bind, Option.bind_some]
      rw [fmtLiteral_append]
      simp only [Option.bind_some]
      rw [h2]
      simp only [Option.bind_some]
      rw [fmtLiteral_append]
      simp only [Option.bind_some]
      rw [fmtScanString_word cls rest hne hc hrest]
      simp [fmtSpace_of hrest]
    simp only [List.append_assoc]
    rw [hsome]

theorem scanWidthLine_noData {line : GoString} (h : NoData line) : scanWidthLine line = none := by
  rcases h with rfl | h
  · decide +kernel
  · unfold scanWidthLine
    rw [if_pos]
    cases line with
    | nil => simp at h
    | cons b t =>
      simp only [List.head?_cons, Option.some.injEq] at h
      subst h
      rw [show lit "#" = [0x23] by decide +kernel]
      simp [List.isPrefixOf]

/-- The range of a line of the emoji file before the check that it is not below U+00FF. -/
def emojiRange (line : GoString) : Option (Int × Int) :=
  match sscanfRange line with
  | some r => some r
  | none =>
    match sscanfOne line with
    | some r1 => some (r1, r1)
    | none => none

theorem emojiRange_some {line : GoString} {lo hi : Nat} (h : EmojiLine line lo hi) : emojiRange line = some ((lo : Int), (hi : Int)) := by
  obtain ⟨range, rest, rfl, hr, hrest⟩ := h
  have ed : lit ".." = [0x2E, 0x2E] := by decide +kernel
  unfold emojiRange
  rcases hr with ⟨hd, heq⟩ | ⟨d, e, rfl, hd, he⟩
  · subst hi
    have h1 := fmtScanHex_digits range lo rest hd (endOrSpace_hex hrest)
    have hn : sscanfRange (range ++ rest) = none := by
      unfold sscanfRange
      rw [h1, ed]
      simp only [Option.bind_eq_bind, Option.bind_some]
      have : fmtLiteral [0x2E, 0x2E] rest = none := by
        rcases hrest with rfl | ⟨t, rfl⟩
        · rfl
        · exact fmtLiteral_ne _ _ _ _ (by decide)
      rw [this]
      rfl
    have hsome : sscanfOne (range ++ rest) = some (lo : Int) := by
      unfold sscanfOne
      rw [h1]
      simp [fmtSpace_of hrest]
    rw [hn, hsome]
  · have h1 : fmtScanHex (d ++ ([0x2E, 0x2E] ++ (e ++ rest))) = some ((lo : Int), [0x2E, 0x2E] ++ (e ++ rest)) :=
      fmtScanHex_digits d lo _ hd (by simp; decide)
    have h2 := fmtScanHex_digits e hi rest he (endOrSpace_hex hrest)
    have hsome : sscanfRange (d ++ ([0x2E, 0x2E] ++ (e ++ rest))) = some ((lo : Int), (hi : Int)) := by
      unfold sscanfRange
      rw [h1, ed]
      simp only [Option.bind_eq_bind, Option.bind_some]
      rw [fmtLiteral_append]
      simp only [Option.bind_some]
      rw [h2]
      simp [fmtSpace_of hrest]
    simp only [List.append_assoc]
    rw [hsome]

theorem emojiLine_unique {line : GoString} {lo hi lo' hi' : Nat} (h : EmojiLine line lo hi)
    (h' : EmojiLine line lo' hi') : lo = lo' ∧ hi = hi' := by
  have e := emojiRange_some h
  rw [emojiRange_some h'] at e
  simp only [Option.some.injEq, Prod.mk.injEq] at e
  omega

theorem scanEmojiLine_some {line : GoString} {lo hi : Nat} (h : EmojiLine line lo hi) :
    scanEmojiLine line = if hi < 0xff then none else some ((lo : Int), (hi : Int)) := by
  have e : scanEmojiLine line = if (lit "#").isPrefixOf line then none else
      match emojiRange line with
      | none => none
      | some (r1, r2) => if r2 < 0xff then none else some (r1, r2) := rfl
  rw [e, emojiRange_some h]
  obtain ⟨range, rest, rfl, hr, hrest⟩ := h
  rw [not_comment hr rest]
  simp

theorem scanEmojiLine_noData {line : GoString} (h : NoData line) : scanEmojiLine line = none := by
  rcases h with rfl | h
  · decide +kernel
  · unfold scanEmojiLine
    rw [if_pos]
    cases line with
    | nil => simp at h
    | cons b t =>
      simp only [List.head?_cons, Option.some.injEq] at h
      subst h
      rw [show lit "#" = [0x23] by decide +kernel]
      simp [List.isPrefixOf]

/-- A space before the semicolon makes the line be skipped. -/
theorem scanWidthLine_space {range : GoString} {lo hi : Nat} (h : RangeText range lo hi) (t : GoString) :
    scanWidthLine (range ++ 0x20 :: t) = none := by
  have hnc := not_comment h (0x20 :: t)
  have ed : lit ".." = [0x2E, 0x2E] := by decide +kernel
  have es : lit ";" = [0x3B] := by decide +kernel
  unfold scanWidthLine
  rw [hnc]
  simp only [Bool.false_eq_true, if_false]
  rcases h with ⟨hd, heq⟩ | ⟨d, e, rfl, hd, he⟩
  · subst hi
    have h1 := fmtScanHex_digits range lo (0x20 :: t) hd (by simp; decide)
    have hn : sscanfRangeClass (range ++ 0x20 :: t) = none := by
      unfold sscanfRangeClass
      rw [h1, ed]
      simp only [Option.bind_eq_bind, Option.bind_some]
      rw [fmtLiteral_ne _ _ _ _ (by decide)]
      rfl
    have hn2 : sscanfClass (range ++ 0x20 :: t) = none := by
      unfold sscanfClass
      rw [h1, es]
      simp only [Option.bind_eq_bind, Option.bind_some]
      rw [fmtLiteral_ne _ _ _ _ (by decide)]
      rfl
    rw [hn, hn2]
  · have h1 : fmtScanHex (d ++ ([0x2E, 0x2E] ++ (e ++ 0x20 :: t))) = some ((lo : Int), [0x2E, 0x2E] ++ (e ++ 0x20 :: t)) :=
      fmtScanHex_digits d lo _ hd (by simp; decide)
    have h2 := fmtScanHex_digits e hi (0x20 :: t) he (by simp; decide)
    have hn : sscanfRangeClass (d ++ ([0x2E, 0x2E] ++ (e ++ 0x20 :: t))) = none := by
      unfold sscanfRangeClass
      rw [h1, ed, es]
      simp only [Option.bind_eq_bind, Option.bind_some]
      rw [fmtLiteral_append]
      simp only [Option.bind_some]
      rw [h2]
      simp only [Option.bind_some]
      rw [fmtLiteral_ne _ _ _ _ (by decide)]
      rfl
    have hn2 : sscanfClass (d ++ ([0x2E, 0x2E] ++ (e ++ 0x20 :: t))) = none := by
      unfold sscanfClass
      rw [h1, es]
      simp only [Option.bind_eq_bind, Option.bind_some, List.cons_append, List.nil_append]
      rw [fmtLiteral_ne _ _ _ _ (by decide)]
      rfl
    simp only [List.append_assoc]
    rw [hn, hn2]

/-! ## Printing -/

theorem hexDigitOf_spec (k : Nat) (h : k < 16) : HexDigit (hexDigitOf k) ∧ hexDigitValue (hexDigitOf k) = k := by
  have : ∀ k < 16, ((0x30 ≤ (hexDigitOf k).toNat ∧ (hexDigitOf k).toNat ≤ 0x39) ∨
      (0x41 ≤ (hexDigitOf k).toNat ∧ (hexDigitOf k).toNat ≤ 0x46)) ∧ hexDigitValue (hexDigitOf k) = k := by decide
  exact this k h

theorem hexNumber_concat (s : GoString) (b : UInt8) : hexNumber (s ++ [b]) = hexNumber s * 16 + hexDigitValue b := by
  induction s with
  | nil => simp [hexNumber]
  | cons c s ih =>
    rw [List.cons_append, hexNumber, hexNumber, ih, List.length_append, List.length_singleton, Nat.pow_succ,
      Nat.add_mul, Nat.mul_assoc, Nat.add_assoc]

theorem hexDigits_spec (n : Nat) :
    hexDigits n ≠ [] ∧ (∀ b ∈ hexDigits n, HexDigit b) ∧ hexNumber (hexDigits n) = n := by
  induction n using Nat.strongRecOn with
  | ind n ih =>
    rw [hexDigits]
    split
    · rename_i h
      obtain ⟨h1, h2⟩ := hexDigitOf_spec n h
      refine ⟨by simp, by simpa using h1, ?_⟩
      simpa [hexNumber] using h2
    · rename_i h
      obtain ⟨i1, i2, i3⟩ := ih (n / 16) (by omega)
      obtain ⟨h1, h2⟩ := hexDigitOf_spec (n % 16) (by omega)
      refine ⟨by simp, ?_, ?_⟩
      · intro b hb
        rcases List.mem_append.mp hb with hb | hb
        · exact i2 b hb
        · rw [List.mem_singleton] at hb; subst hb; exact h1
      · rw [hexNumber_concat, i3, h2]; omega

theorem hexNumber_zeros (k : Nat) (s : GoString) : hexNumber (List.replicate k 0x30 ++ s) = hexNumber s := by
  induction k with
  | zero => simp
  | succ k ih =>
    rw [List.replicate_succ, List.cons_append, hexNumber, ih]
    simp [hexDigitValue]

theorem hexDigits_head (n : Nat) (h : 1 < (hexDigits n).length) : (hexDigits n).head? ≠ some 0x30 := by
  induction n using Nat.strongRecOn with
  | ind n ih =>
    rw [hexDigits] at h ⊢
    split at h
    · simp at h
    · rename_i h16
      rw [if_neg h16]
      have hne := (hexDigits_spec (n / 16)).1
      rw [List.head?_append, Option.or_of_isSome (by simpa using hne)]
      by_cases hl : 1 < (hexDigits (n / 16)).length
      · exact ih (n / 16) (by omega) hl
      · rw [hexDigits]
        have : n / 16 < 16 := by
          by_contra hc
          rw [hexDigits, if_neg hc] at hl
          simp at hl
          exact absurd hl (hexDigits_spec (n / 16 / 16)).1
        rw [if_pos this]
        have hd : ∀ k < 16, 0 < k → hexDigitOf k ≠ 0x30 := by decide
        simpa using hd _ this (by omega)

theorem padded_head {k n : Nat} (hk : 1 ≤ k)
    (h : k < (List.replicate (k - (hexDigits n).length) (0x30 : UInt8) ++ hexDigits n).length) :
    (List.replicate (k - (hexDigits n).length) (0x30 : UInt8) ++ hexDigits n).head? ≠ some 0x30 := by
  simp only [List.length_append, List.length_replicate] at h
  rw [show k - (hexDigits n).length = 0 by omega]
  exact hexDigits_head n (by omega)

theorem hexText_spec (n : Nat) :
    4 ≤ (hexText n).length ∧ (∀ b ∈ hexText n, HexDigit b) ∧ hexNumber (hexText n) = n := by
  obtain ⟨h1, h2, h3⟩ := hexDigits_spec n
  unfold hexText
  simp only [show ¬ ((n : Int) < 0) by omega, if_false, Int.natAbs_natCast, List.nil_append]
  refine ⟨by simp; omega, ?_, ?_⟩
  · intro b hb
    rcases List.mem_append.mp hb with hb | hb
    · rw [List.eq_of_mem_replicate hb]; simp [HexDigit]
    · exact h2 b hb
  · rw [hexNumber_zeros, h3]

theorem hexText_negative {n : Int} (h : n < 0) : ∃ d, hexText n = 0x2D :: d ∧ 3 ≤ d.length ∧ (∀ b ∈ d, HexDigit b) ∧
    n = -hexNumber d ∧ (3 < d.length → d.head? ≠ some 0x30) := by
  obtain ⟨h1, h2, h3⟩ := hexDigits_spec n.natAbs
  unfold hexText
  simp only [h, if_true, List.cons_append, List.nil_append]
  refine ⟨_, rfl, by simp; omega, ?_, ?_, padded_head (by omega)⟩
  · intro b hb
    rcases List.mem_append.mp hb with hb | hb
    · rw [List.eq_of_mem_replicate hb]; simp [HexDigit]
    · exact h2 b hb
  · rw [hexNumber_zeros, h3]
    omega

theorem hexText_head (n : Nat) : 4 < (hexText n).length → (hexText n).head? ≠ some 0x30 := by
  unfold hexText
  simp only [show ¬ ((n : Int) < 0) by omega, if_false, Int.natAbs_natCast, List.nil_append]
  exact padded_head (by omega)

/-- The text for ranges that are not negative. -/
theorem generateText_signed (v : GoString) (arr : List (Nat × Nat)) : generateText v (signedRanges arr) =
    lit "var " ++ v ++ lit " = table{\n\t" ++
    ((List.range arr.length).flatMap fun i =>
      let e := arr.getD i (0, 0)
      lit "{0x" ++ hexText (e.1 : Int) ++ lit ", 0x" ++ hexText (e.2 : Int) ++ lit "}," ++
        (if i + 1 < arr.length then if i % 3 = 2 then lit "\n\t" else lit " " else [])) ++
    lit "\n}\n" := by
  have hl : (signedRanges arr).length = arr.length := by simp [signedRanges]
  have hg : ∀ i, (signedRanges arr).getD i (0, 0) = (((arr.getD i (0, 0)).1 : Int), ((arr.getD i (0, 0)).2 : Int)) := by
    intro i
    simp only [signedRanges, List.getD_eq_getElem?_getD, List.getElem?_map]
    cases arr[i]? <;> rfl
  unfold generateText
  simp only [hl, hg]

end GoTable
