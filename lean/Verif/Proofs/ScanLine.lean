import Verif.Proofs.GenRunewidth
import Verif.Proofs.Trim
import Verif.Proofs.UTF8
/-!
# What `Sscanf` reads
-/

namespace GoTable
open Spec

theorem isFmtSpace_iff (r : Nat) : isFmtSpace r = true ↔ r ∈ whiteSpace := by
  simp only [isFmtSpace, whiteSpace, Bool.or_eq_true, Bool.and_eq_true, decide_eq_true_eq, beq_iff_eq, List.mem_cons,
    List.not_mem_nil, or_false]
  omega

theorem whiteSpace_scalar {c : Nat} (h : c ∈ whiteSpace) : Scalar c := by
  simp only [whiteSpace, List.mem_cons, List.not_mem_nil, or_false] at h
  unfold Scalar
  omega

theorem decode_space {c : Nat} (h : c ∈ whiteSpace) {s : GoString} (hp : encode c <+: s) :
    decodeRune s = (c, (encode c).length) := by
  obtain ⟨t, rfl⟩ := hp
  exact decodeRune_encode c (whiteSpace_scalar h) t

theorem space_of_decode {s : GoString} (hs : s ≠ []) (h : (decodeRune s).1 ∈ whiteSpace) :
    encode (decodeRune s).1 <+: s ∧ (decodeRune s).2 = (encode (decodeRune s).1).length := by
  rcases decodeRune_prefix s hs with h1 | ⟨_, h2, h3⟩
  · rw [h1] at h
    exact absurd h (by decide)
  · exact ⟨h3, h2⟩

theorem encode_ne_nil (c : Nat) : encode c ≠ [] := List.ne_nil_of_length_pos (encode_length_pos c)

theorem fmtSpace_iff (s : GoString) : fmtSpace s = true ↔ FieldEnd s := by
  unfold fmtSpace FieldEnd
  simp only [Bool.or_eq_true, decide_eq_true_eq, Bool.and_eq_true, bne_iff_ne]
  rw [isFmtSpace_iff]
  by_cases hs : s = []
  · simp [hs]
  simp only [hs, false_or]
  constructor
  · rintro ⟨h1, h2⟩
    exact ⟨_, h1, h2, (space_of_decode hs h1).1⟩
  · rintro ⟨c, h1, h2, h3⟩
    rw [decode_space h1 h3]
    exact ⟨h1, h2⟩

theorem skipBlank_spec (s : GoString) : ∃ b, Blanks b ∧
    s = b ++ skipRunes (fun r => isFmtSpace r && r != 0x0a) s ∧
    ∀ c ∈ whiteSpace, c ≠ 0x0A → ¬ encode c <+: skipRunes (fun r => isFmtSpace r && r != 0x0a) s := by
  induction hn : s.length using Nat.strongRecOn generalizing s with
  | _ n ih =>
    rw [skipRunes]
    by_cases hs : s = []
    · subst hs
      refine ⟨[], ⟨[], by simp, rfl⟩, by simp, ?_⟩
      intro c _ _ h
      simp only [dif_pos, List.prefix_nil] at h
      exact encode_ne_nil c h
    rw [dif_neg hs]
    by_cases hp : (isFmtSpace (decodeRune s).1 && (decodeRune s).1 != 0x0a) = true
    · rw [if_pos hp]
      simp only [Bool.and_eq_true, bne_iff_ne] at hp
      have hw := (isFmtSpace_iff _).mp hp.1
      obtain ⟨h1, h2⟩ := space_of_decode hs hw
      obtain ⟨t, ht⟩ := h1
      have hd : s.drop (decodeRune s).2 = t := by
        rw [h2]
        generalize (decodeRune s).1 = r at ht
        rw [← ht, List.drop_left]
      rw [hd]
      obtain ⟨b, ⟨cs, hcs, rfl⟩, h3, h4⟩ := ih t.length (by
        rw [← hn, ← ht]; have := encode_length_pos (decodeRune s).1; simp; omega) t rfl
      refine ⟨_, ⟨(decodeRune s).1 :: cs, ?_, rfl⟩, ?_, h4⟩
      · intro c hc
        rcases List.mem_cons.mp hc with rfl | hc
        · exact ⟨hw, hp.2⟩
        · exact hcs c hc
      · rw [List.map_cons, List.flatten_cons, List.append_assoc, ← h3, ht]
    · rw [if_neg hp]
      refine ⟨[], ⟨[], by simp, rfl⟩, rfl, ?_⟩
      intro c hc hne h
      rw [decode_space hc h] at hp
      exact hp (by simp [(isFmtSpace_iff c).mpr hc, hne])

theorem skipBlank_append {b s : GoString} (hb : Blanks b) (hs : ∀ c ∈ whiteSpace, c ≠ 0x0A → ¬ encode c <+: s) :
    skipRunes (fun r => isFmtSpace r && r != 0x0a) (b ++ s) = s := by
  obtain ⟨cs, hcs, rfl⟩ := hb
  induction cs with
  | nil =>
    rw [List.map_nil, List.flatten_nil, List.nil_append, skipRunes]
    by_cases h : s = []
    · simp [h]
    · rw [dif_neg h, if_neg]
      simp only [Bool.and_eq_true, bne_iff_ne]
      rintro ⟨h1, h2⟩
      have hw := (isFmtSpace_iff _).mp h1
      exact hs _ hw h2 (space_of_decode h hw).1
  | cons c cs ih =>
    obtain ⟨h1, h2⟩ := hcs c List.mem_cons_self
    rw [List.map_cons, List.flatten_cons, List.append_assoc, skipRunes, dif_neg (by simp [encode_ne_nil]),
      decodeRune_encode c (whiteSpace_scalar h1), if_pos (by simp [(isFmtSpace_iff c).mpr h1, h2]), List.drop_left]
    exact ih fun x hx => hcs x (List.mem_cons_of_mem _ hx)

theorem newline_prefix (s : GoString) : s.head? = some 0x0a ↔ encode 0x0A <+: s := by
  rw [show encode 0x0A = [0x0A] by decide]
  cases s with
  | nil => simp
  | cons b t => simp [List.cons_prefix_cons, eq_comm]

theorem fmtSkipSpace_iff (s t : GoString) : fmtSkipSpace s = some t ↔
    ∃ b, Blanks b ∧ s = b ++ t ∧ ∀ c ∈ whiteSpace, ¬ encode c <+: t := by
  unfold fmtSkipSpace
  constructor
  · intro h
    obtain ⟨b, hb, h1, h2⟩ := skipBlank_spec s
    dsimp only at h
    split at h
    · cases h
    · rename_i hn
      injection h with h
      rw [h] at h1 h2 hn
      refine ⟨b, hb, h1, fun c hc hp => ?_⟩
      by_cases h0 : c = 0x0A
      · subst h0; exact hn ((newline_prefix t).mpr hp)
      · exact h2 c hc h0 hp
  · rintro ⟨b, hb, rfl, h⟩
    rw [skipBlank_append hb (fun c hc _ => h c hc)]
    dsimp only
    rw [if_neg]
    intro h0
    exact h _ (by decide) ((newline_prefix t).mp h0)

theorem encode_cont (r : Nat) : ∀ b ∈ (encode r).tail, isCont b = true := by
  unfold encode
  repeat' split
  all_goals
    simp only [List.tail_cons, List.mem_cons, List.not_mem_nil, or_false, false_imp_iff, implies_true, isCont,
      Bool.and_eq_true, decide_eq_true_eq]
  · rintro b rfl; rw [toNat_ofNat_lt (by omega)]; omega
  · rintro b (rfl | rfl) <;> (rw [toNat_ofNat_lt (by omega)]; omega)
  · rintro b (rfl | rfl | rfl) <;> (rw [toNat_ofNat_lt (by omega)]; omega)

theorem space_start {c : Nat} (h : c ∈ whiteSpace) : ∃ b t, encode c = b :: t ∧ isCont b = false := by
  obtain ⟨b, t, h1, h2, _⟩ := space_lead (encode c) (by rw [spaceEncodings_eq]; exact List.mem_map_of_mem h)
  exact ⟨b, t, h1, h2⟩

/-- What follows the character read is not the middle of white space. -/
theorem no_space_append {s w rest : GoString} (hs : s ≠ []) (hsp : (decodeRune s).1 ∉ whiteSpace)
    (hd : s.drop (decodeRune s).2 = w ++ rest) (hw : ∀ c ∈ whiteSpace, ¬ encode c <:+: w) :
    ∀ c ∈ whiteSpace, ¬ encode c <:+: s.take (decodeRune s).2 ++ w := by
  rintro c hc ⟨a, b, hab⟩
  have hsz := decodeRune_size s hs
  have hlen : (s.take (decodeRune s).2).length = (decodeRune s).2 := by rw [List.length_take]; omega
  obtain ⟨x, t, hx, hcont⟩ := space_start hc
  by_cases h1 : (decodeRune s).2 ≤ a.length
  · apply hw c hc
    refine ⟨a.drop (decodeRune s).2, b, ?_⟩
    have := congrArg (List.drop (decodeRune s).2) hab
    rw [List.append_assoc, List.drop_append_of_le_length h1] at this
    rw [List.append_assoc, this]
    rw [List.drop_left' hlen]
  by_cases h0 : a = []
  · subst h0
    apply hsp
    have hp : encode c <+: s := by
      refine ⟨b ++ rest, ?_⟩
      rw [← List.append_assoc, ← List.nil_append (encode c), hab, List.append_assoc, ← hd, List.take_append_drop]
    rw [decode_space hc hp]
    exact hc
  · have hpos : 0 < a.length := List.length_pos_iff.mpr h0
    have hx' : s[a.length]? = some x := by
      have e : s = (a ++ encode c ++ b) ++ rest := by
        rw [hab, List.append_assoc, ← hd, List.take_append_drop]
      rw [e, hx]
      simp
    rcases decodeRune_prefix s hs with h2 | ⟨_, h3, u, hu⟩
    · rw [h2] at h1; dsimp only at h1; omega
    · have hcont' := encode_cont (decodeRune s).1
      have hm : x ∈ (encode (decodeRune s).1).tail := by
        rw [← hu, List.getElem?_append_left (by omega)] at hx'
        apply List.mem_of_getElem? (i := a.length - 1)
        rw [List.getElem?_tail, Nat.sub_add_cancel hpos]
        exact hx'
      rw [hcont' x hm] at hcont
      cases hcont

theorem skipWord_spec (s : GoString) : ∃ w, s = w ++ skipRunes (fun r => !isFmtSpace r) s ∧
    (∀ c ∈ whiteSpace, ¬ encode c <:+: w) ∧
    (skipRunes (fun r => !isFmtSpace r) s = [] ∨ ∃ c ∈ whiteSpace, encode c <+: skipRunes (fun r => !isFmtSpace r) s) := by
  have hnil : ∀ c ∈ whiteSpace, ¬ encode c <:+: [] := fun c _ h => encode_ne_nil c (List.infix_nil.mp h)
  induction hn : s.length using Nat.strongRecOn generalizing s with
  | _ n ih =>
    rw [skipRunes]
    by_cases hs : s = []
    · subst hs
      exact ⟨[], by simp, hnil, .inl (by simp)⟩
    rw [dif_neg hs]
    by_cases hp : (decodeRune s).1 ∈ whiteSpace
    · rw [if_neg (by simp [(isFmtSpace_iff _).mpr hp])]
      exact ⟨[], rfl, hnil, .inr ⟨_, hp, (space_of_decode hs hp).1⟩⟩
    · rw [if_pos (by
        rw [← isFmtSpace_iff] at hp; simpa using hp)]
      have hsz := decodeRune_size s hs
      obtain ⟨w, h1, h2, h3⟩ := ih (s.drop (decodeRune s).2).length (by rw [List.length_drop]; omega) _ rfl
      refine ⟨s.take (decodeRune s).2 ++ w, ?_, no_space_append hs hp h1 h2, h3⟩
      rw [List.append_assoc, ← h1, List.take_append_drop]

theorem skipWord_append {w s : GoString} (hw : ∀ c ∈ whiteSpace, ¬ encode c <:+: w)
    (hs : s = [] ∨ ∃ c ∈ whiteSpace, encode c <+: s) : skipRunes (fun r => !isFmtSpace r) (w ++ s) = s := by
  have hclean : startsClean s = true := by
    rcases hs with rfl | ⟨c, hc, t, rfl⟩
    · rfl
    · exact startsClean_encode c (whiteSpace_scalar hc) t
  induction hn : w.length using Nat.strongRecOn generalizing w with
  | _ n ih =>
    by_cases h0 : w = []
    · subst h0
      rw [List.nil_append, skipRunes]
      rcases hs with rfl | ⟨c, hc, hp⟩
      · simp
      · rw [dif_neg (by rintro rfl; exact encode_ne_nil c (List.prefix_nil.mp hp)), decode_space hc hp,
          if_neg (by simp [(isFmtSpace_iff _).mpr hc])]
    · have hsz := decodeRune_size w h0
      rw [skipRunes, dif_neg (by simp [h0]), decodeRune_append w s h0 hclean]
      have hp : (decodeRune w).1 ∉ whiteSpace := fun h => hw _ h (space_of_decode h0 h).1.isInfix
      rw [if_pos (by
        rw [← isFmtSpace_iff] at hp; simpa using hp), List.drop_append_of_le_length (by omega)]
      exact ih (w.drop (decodeRune w).2).length (by rw [List.length_drop]; omega)
        (fun c hc h => hw c hc (h.trans (List.drop_suffix _ _).isInfix)) rfl

theorem fmtValid_eq (s : GoString) : fmtValid s = validText s := by
  induction hn : s.length using Nat.strongRecOn generalizing s with
  | ind n ih =>
    subst hn
    unfold validText runes
    rw [fmtValid, tokens]
    by_cases h : s = []
    · simp [h]
    have hsz := decodeRune_size s h
    have hi := ih (s.drop (decodeRune s).2).length (by rw [List.length_drop]; omega) _ rfl
    rw [dif_neg h, dif_neg h, hi, List.map_cons, List.map_cons, List.flatten_cons]
    congr 1
    rcases decodeRune_prefix s h with hd | ⟨_, h2, t, h3⟩
    · rw [hd, if_pos (by decide)]
      decide
    · rw [h2]
      split
      · rename_i he
        have h1 := congrArg Prod.snd he
        have h1' := congrArg Prod.fst he
        simp only at h1 h1'
        rw [h2, h1'] at h1
        exact absurd h1 (by decide)
      · generalize encode (decodeRune s).1 = e at h3 ⊢
        rw [← h3, List.take_left]

theorem scanWord_iff (s w : GoString) :
    (∃ rest, fmtScanString s = some (w, rest) ∧ fmtSpace rest = true) ↔ StartsWithWord s w := by
  unfold fmtScanString StartsWithWord
  constructor
  · rintro ⟨rest, h, he⟩
    cases h0 : fmtSkipSpace s with
    | none => rw [h0] at h; cases h
    | some t =>
      rw [h0] at h
      dsimp only at h
      obtain ⟨b, hb, hbt, hnb⟩ := (fmtSkipSpace_iff s t).mp h0
      split at h
      · cases h
      rename_i hne
      obtain ⟨v, h1, h2, h3⟩ := skipWord_spec t
      generalize hr : skipRunes (fun r => !isFmtSpace r) t = r at *
      simp only [Option.some.injEq, Prod.mk.injEq] at h
      obtain ⟨e1, rfl⟩ := h
      rw [h1, before_append] at e1
      refine ⟨b, v, r, ?_, hb, ?_, h2, (fmtSpace_iff _).mp he, by rw [← e1, fmtValid_eq]⟩
      · rw [hbt, List.append_assoc, ← h1]
      · rintro rfl
        rw [List.nil_append] at h1
        subst h1
        rcases h3 with h3 | ⟨c, hc, hp⟩
        · exact hne h3
        · exact hnb c hc hp
  · rintro ⟨b, v, rest, rfl, hb, hne, hw, he, rfl⟩
    refine ⟨rest, ?_, (fmtSpace_iff _).mpr he⟩
    have he' : rest = [] ∨ ∃ c ∈ whiteSpace, encode c <+: rest := by
      rcases he with h | ⟨c, h1, _, h2⟩
      · exact .inl h
      · exact .inr ⟨c, h1, h2⟩
    have hclean : startsClean rest = true := by
      rcases he' with rfl | ⟨c, hc, t, rfl⟩
      · rfl
      · exact startsClean_encode c (whiteSpace_scalar hc) t
    have h0 : fmtSkipSpace (b ++ v ++ rest) = some (v ++ rest) := by
      rw [fmtSkipSpace_iff]
      refine ⟨b, hb, by simp, fun c hc hp => ?_⟩
      have h1 := decode_space hc hp
      rw [decodeRune_append v rest hne hclean] at h1
      exact hw c hc (by
        have := (space_of_decode hne (by rw [h1]; exact hc)).1
        rw [h1] at this
        exact this.isInfix)
    rw [h0]
    dsimp only
    rw [skipWord_append hw he', if_neg (by simp [hne]), before_append, fmtValid_eq]

theorem isHexAny_iff (b : UInt8) : isHexAny b = true ↔ AnyHexDigit b := by
  unfold isHexAny AnyHexDigit HexDigit
  simp only [Bool.or_eq_true, Bool.and_eq_true, decide_eq_true_eq]

theorem upper_hex {b : UInt8} (h : AnyHexDigit b) : HexDigit (upperHexDigit b) ∧
    hexValue b = hexValue (upperHexDigit b) := by
  have key : ∀ b : UInt8, isHexAny b = true → isHexAny (upperHexDigit b) = true ∧ (upperHexDigit b).toNat ≤ 0x46 ∧
      hexValue b = hexValue (upperHexDigit b) := by
    have : ∀ n < 256, isHexAny (UInt8.ofNat n) = true → isHexAny (upperHexDigit (UInt8.ofNat n)) = true ∧
      (upperHexDigit (UInt8.ofNat n)).toNat ≤ 0x46 ∧
      hexValue (UInt8.ofNat n) = hexValue (upperHexDigit (UInt8.ofNat n)) := by decide +kernel
    intro b
    have := this b.toNat b.toNat_lt
    simpa using this
  obtain ⟨h1, h2, h3⟩ := key b ((isHexAny_iff b).mpr h)
  refine ⟨?_, h3⟩
  rcases (isHexAny_iff _).mp h1 with h4 | h4
  · exact h4
  · omega

theorem parseHex_upper {d : GoString} (h : ∀ b ∈ d, AnyHexDigit b) : parseHex d = hexNumber (d.map upperHexDigit) := by
  rw [← hexNumber_eq _ (by
    intro b hb
    obtain ⟨a, ha, rfl⟩ := List.mem_map.mp hb
    exact (upper_hex (h a ha)).1)]
  unfold parseHex
  rw [List.foldl_map]
  have : ∀ (d : GoString) (n : Nat), (∀ b ∈ d, AnyHexDigit b) → d.foldl (fun n b => n * 16 + hexValue b) n =
      d.foldl (fun n b => n * 16 + hexValue (upperHexDigit b)) n := by
    intro d
    induction d with
    | nil => simp
    | cons b d ih =>
      intro n h
      rw [List.foldl_cons, List.foldl_cons, ih _ (fun x hx => h x (List.mem_cons_of_mem _ hx)),
        (upper_hex (h b List.mem_cons_self)).2]
  exact this d 0 h

theorem takeWhile_split {p : UInt8 → Bool} {d s : GoString} (hd : ∀ b ∈ d, p b = true)
    (hs : ∀ b, s.head? = some b → p b = false) : (d ++ s).takeWhile p = d ∧ (d ++ s).dropWhile p = s := by
  rw [List.takeWhile_append_of_pos hd, List.dropWhile_append_of_pos hd]
  cases s with
  | nil => simp
  | cons c s =>
    rw [List.takeWhile_cons_of_neg (by simp [hs c rfl]), List.dropWhile_cons_of_neg (by simp [hs c rfl])]
    simp

theorem ascii_no_space {x : UInt8} (h1 : 0x21 ≤ x.toNat) (h2 : x.toNat < 0x80) (s : GoString) :
    ∀ c ∈ whiteSpace, ¬ encode c <+: x :: s := by
  intro c hc hp
  have h := decode_space hc hp
  rw [decodeRune_ascii x s h2] at h
  injection h with h _
  subst h
  simp only [whiteSpace, List.mem_cons, List.not_mem_nil, or_false] at hc
  omega

theorem scanHex_iff (s : GoString) (n : Int) (rest : GoString) :
    fmtScanHex s = some (n, rest) ↔ StartsWithNumber s n rest := by
  unfold fmtScanHex StartsWithNumber
  constructor
  · intro h
    cases h0 : fmtSkipSpace s with
    | none => rw [h0] at h; cases h
    | some t =>
      rw [h0] at h
      dsimp only at h
      obtain ⟨b, hb, hbt, hnb⟩ := (fmtSkipSpace_iff s t).mp h0
      obtain ⟨sign, u, hu, hsign, hif⟩ : ∃ sign u, t = sign ++ u ∧
          ((sign = [] ∨ sign = [0x2B]) ∧ t.head? ≠ some 0x2d ∨ sign = [0x2D] ∧ t.head? = some 0x2d) ∧
          (if t.head? = some 0x2b ∨ t.head? = some 0x2d then t.tail else t) = u := by
        cases t with
        | nil => exact ⟨[], [], rfl, .inl ⟨.inl rfl, by simp⟩, rfl⟩
        | cons x t =>
          simp only [List.head?_cons, Option.some.injEq, List.tail_cons]
          by_cases h1 : x = 0x2b
          · subst h1
            exact ⟨[0x2B], t, rfl, .inl ⟨.inr rfl, by decide⟩, by simp⟩
          · by_cases h2 : x = 0x2d
            · subst h2
              exact ⟨[0x2D], t, rfl, .inr ⟨rfl, rfl⟩, by simp⟩
            · exact ⟨[], x :: t, rfl, .inl ⟨.inl rfl, by simpa using h2⟩, by simp [h1, h2]⟩
      rw [hif] at h
      split at h
      · cases h
      rename_i hne
      have hdig : ∀ b ∈ u.takeWhile isHexAny, AnyHexDigit b := fun b hb =>
        (isHexAny_iff b).mp (List.all_eq_true.mp List.all_takeWhile b hb)
      rw [parseHex_upper hdig] at h
      by_cases hlt : -2 ^ 31 ≤ (if t.head? = some 0x2d then -(hexNumber ((u.takeWhile isHexAny).map upperHexDigit) : Int)
          else (hexNumber ((u.takeWhile isHexAny).map upperHexDigit) : Int)) ∧
          (if t.head? = some 0x2d then -(hexNumber ((u.takeWhile isHexAny).map upperHexDigit) : Int)
          else (hexNumber ((u.takeWhile isHexAny).map upperHexDigit) : Int)) < 2 ^ 31
      · rw [if_pos hlt] at h
        injection h with h
        injection h with h1 h2
        subst h1 h2
        refine ⟨b, sign, u.takeWhile isHexAny, ?_, hb, hne, hdig, ?_, ?_, hlt⟩
        · rw [hbt, hu, List.append_assoc, List.append_assoc, List.takeWhile_append_dropWhile]
        · intro x hx hany
          have := List.head?_dropWhile_not isHexAny u
          rw [hx] at this
          simp [(isHexAny_iff x).mpr hany] at this
        · rcases hsign with ⟨h1, h2⟩ | ⟨h1, h2⟩
          · exact .inl ⟨h1, by rw [if_neg h2]⟩
          · exact .inr ⟨h1, by rw [if_pos h2]⟩
      · rw [if_neg hlt] at h
        cases h
  · rintro ⟨b, sign, digits, rfl, hb, hne, hdig, hrest, hsign, hlt⟩
    cases digits with
    | nil => exact absurd rfl hne
    | cons x d =>
      have hx : 0x30 ≤ x.toNat ∧ x.toNat ≤ 0x66 := by
        have := hdig x List.mem_cons_self
        unfold AnyHexDigit HexDigit at this
        omega
      have hx1 : x ≠ 0x2b := by rintro rfl; simp at hx
      have hx2 : x ≠ 0x2d := by rintro rfl; simp at hx
      have h0 : fmtSkipSpace (b ++ sign ++ (x :: d) ++ rest) = some (sign ++ (x :: d) ++ rest) := by
        rw [fmtSkipSpace_iff]
        refine ⟨b, hb, by simp, ?_⟩
        rcases hsign with ⟨rfl | rfl, _⟩ | ⟨rfl, _⟩
        · exact ascii_no_space (by omega) (by omega) _
        · exact ascii_no_space (by decide) (by decide) _
        · exact ascii_no_space (by decide) (by decide) _
      rw [h0]
      dsimp only
      have hif : (if (sign ++ (x :: d) ++ rest).head? = some 0x2b ∨ (sign ++ (x :: d) ++ rest).head? = some 0x2d then
          (sign ++ (x :: d) ++ rest).tail else sign ++ (x :: d) ++ rest) = (x :: d) ++ rest := by
        rcases hsign with ⟨rfl | rfl, _⟩ | ⟨rfl, _⟩
        · simp [hx1, hx2]
        · simp
        · simp
      rw [hif]
      obtain ⟨h1, h2⟩ := takeWhile_split (p := isHexAny) (fun y hy => (isHexAny_iff y).mpr (hdig y hy)) (s := rest)
        (fun y hy => by
          have := hrest y hy
          rw [← isHexAny_iff] at this
          simpa using this)
      rw [h1, h2, if_neg (by simp), parseHex_upper hdig]
      have hn : (if (sign ++ (x :: d) ++ rest).head? = some 0x2d then
          -(hexNumber ((x :: d).map upperHexDigit) : Int) else (hexNumber ((x :: d).map upperHexDigit) : Int)) = n := by
        rcases hsign with ⟨rfl | rfl, h⟩ | ⟨rfl, h⟩
        · rw [if_neg (by simpa using hx2), h]
        · rw [if_neg (by simp), h]
        · rw [if_pos (by simp), h]
      rw [hn, if_pos hlt]

theorem fmtLiteral_iff (a s t : GoString) : fmtLiteral a s = some t ↔ s = a ++ t := by
  constructor
  · intro h
    unfold fmtLiteral at h
    split at h
    · rename_i hp
      rw [List.isPrefixOf_iff_prefix] at hp
      obtain ⟨u, rfl⟩ := hp
      rw [List.drop_left] at h
      injection h with h
      rw [h]
    · cases h
  · rintro rfl
    exact fmtLiteral_append a t

theorem startsWithNumber_unique {s : GoString} {n m : Int} {r r' : GoString} (h : StartsWithNumber s n r)
    (h' : StartsWithNumber s m r') : n = m ∧ r = r' := by
  rw [← scanHex_iff] at h h'
  rw [h] at h'
  simpa using h'

theorem sscanfRangeClass_iff (line : GoString) (lo hi : Int) (cls : GoString) :
    sscanfRangeClass line = some (lo, hi, cls) ↔ ∃ t s, StartsWithNumber line lo ([0x2E, 0x2E] ++ t) ∧
      StartsWithNumber t hi ([0x3B] ++ s) ∧ StartsWithWord s cls := by
  unfold sscanfRangeClass
  rw [show lit ".." = [0x2E, 0x2E] by decide +kernel, show lit ";" = [0x3B] by decide +kernel]
  simp only [Option.bind_eq_bind, Option.bind_eq_some_iff, Prod.exists, fmtLiteral_iff, scanHex_iff]
  constructor
  · rintro ⟨lo', s1, h1, t, rfl, hi', s2, h2, s, rfl, cls', s3, h3, h4⟩
    split at h4
    · rename_i h5
      simp only [Option.some.injEq, Prod.mk.injEq] at h4
      obtain ⟨rfl, rfl, rfl⟩ := h4
      exact ⟨t, s, h1, h2, (scanWord_iff _ _).mp ⟨s3, h3, h5⟩⟩
    · cases h4
  · rintro ⟨t, s, h1, h2, h3⟩
    obtain ⟨s3, h4, h5⟩ := (scanWord_iff _ _).mpr h3
    exact ⟨lo, _, h1, t, rfl, hi, _, h2, s, rfl, cls, s3, h4, by rw [if_pos h5]⟩

theorem sscanfClass_iff (line : GoString) (lo : Int) (cls : GoString) :
    sscanfClass line = some (lo, cls) ↔ ∃ s, StartsWithNumber line lo ([0x3B] ++ s) ∧ StartsWithWord s cls := by
  unfold sscanfClass
  rw [show lit ";" = [0x3B] by decide +kernel]
  simp only [Option.bind_eq_bind, Option.bind_eq_some_iff, Prod.exists, fmtLiteral_iff, scanHex_iff]
  constructor
  · rintro ⟨lo', s1, h1, s, rfl, cls', s3, h3, h4⟩
    split at h4
    · rename_i h5
      simp only [Option.some.injEq, Prod.mk.injEq] at h4
      obtain ⟨rfl, rfl⟩ := h4
      exact ⟨s, h1, (scanWord_iff _ _).mp ⟨s3, h3, h5⟩⟩
    · cases h4
  · rintro ⟨s, h1, h3⟩
    obtain ⟨s3, h4, h5⟩ := (scanWord_iff _ _).mpr h3
    exact ⟨lo, _, h1, s, rfl, cls, s3, h4, by rw [if_pos h5]⟩

theorem sscanfRange_iff (line : GoString) (lo hi : Int) :
    sscanfRange line = some (lo, hi) ↔ ∃ t rest, StartsWithNumber line lo ([0x2E, 0x2E] ++ t) ∧
      StartsWithNumber t hi rest ∧ FieldEnd rest := by
  unfold sscanfRange
  rw [show lit ".." = [0x2E, 0x2E] by decide +kernel]
  simp only [Option.bind_eq_bind, Option.bind_eq_some_iff, Prod.exists, fmtLiteral_iff, scanHex_iff]
  constructor
  · rintro ⟨lo', s1, h1, t, rfl, hi', s2, h2, h4⟩
    split at h4
    · rename_i h5
      simp only [Option.some.injEq, Prod.mk.injEq] at h4
      obtain ⟨rfl, rfl⟩ := h4
      exact ⟨t, s2, h1, h2, (fmtSpace_iff _).mp h5⟩
    · cases h4
  · rintro ⟨t, s, h1, h2, h3⟩
    exact ⟨lo, _, h1, t, rfl, hi, _, h2, by rw [if_pos ((fmtSpace_iff _).mpr h3)]⟩

theorem sscanfOne_iff (line : GoString) (lo : Int) :
    sscanfOne line = some lo ↔ ∃ rest, StartsWithNumber line lo rest ∧ FieldEnd rest := by
  unfold sscanfOne
  simp only [Option.bind_eq_bind, Option.bind_eq_some_iff, Prod.exists, scanHex_iff]
  constructor
  · rintro ⟨lo', s1, h1, h4⟩
    split at h4
    · rename_i h5
      simp only [Option.some.injEq] at h4
      subst h4
      exact ⟨s1, h1, (fmtSpace_iff _).mp h5⟩
    · cases h4
  · rintro ⟨s, h1, h3⟩
    exact ⟨lo, _, h1, by rw [if_pos ((fmtSpace_iff _).mpr h3)]⟩

theorem hash_prefix (s : GoString) : (lit "#").isPrefixOf s = true ↔ s.head? = some 0x23 := by
  rw [show lit "#" = [0x23] by decide +kernel]
  cases s with
  | nil => simp [List.isPrefixOf]
  | cons b t =>
    simp only [List.isPrefixOf, Bool.and_true, beq_iff_eq, List.head?_cons, Option.some.injEq]
    exact eq_comm

theorem fieldEnd_not_dots (t : GoString) : ¬ FieldEnd ([0x2E, 0x2E] ++ t) := by
  rintro (h | ⟨c, hc, _, hp⟩)
  · simp at h
  · exact ascii_no_space (by decide) (by decide) _ c hc hp

theorem scanWidthLine_iff (line : GoString) (lo hi : Int) (cls : GoString) : scanWidthLine line = some (lo, hi, cls) ↔
    line.head? ≠ some 0x23 ∧ ∃ s, StartsWithRange line lo hi ([0x3B] ++ s) ∧ StartsWithWord s cls := by
  unfold scanWidthLine
  by_cases hh : line.head? = some 0x23
  · simp [(hash_prefix line).mpr hh, hh]
  rw [if_neg (by rw [hash_prefix]; exact hh)]
  simp only [ne_eq, hh, not_false_eq_true, true_and]
  cases h1 : sscanfRangeClass line with
  | some r =>
    obtain ⟨a, b, c⟩ := r
    obtain ⟨t, s, h2, h3, h4⟩ := (sscanfRangeClass_iff _ _ _ _).mp h1
    dsimp only
    rw [← h1, sscanfRangeClass_iff]
    constructor
    · rintro ⟨t, s, h2, h3, h4⟩
      exact ⟨s, .inr ⟨t, h2, h3⟩, h4⟩
    · rintro ⟨s', ⟨h5, _⟩ | ⟨t', h5, h6⟩, h7⟩
      · have := (startsWithNumber_unique h2 h5).2
        simp at this
      · exact ⟨t', s', h5, h6, h7⟩
  | none =>
    dsimp only
    constructor
    · intro h
      cases h2 : sscanfClass line with
      | none => rw [h2] at h; cases h
      | some r =>
        obtain ⟨a, c⟩ := r
        rw [h2] at h
        simp only [Option.some.injEq, Prod.mk.injEq] at h
        obtain ⟨rfl, rfl, rfl⟩ := h
        obtain ⟨s, h3, h4⟩ := (sscanfClass_iff _ _ _).mp h2
        exact ⟨s, .inl ⟨h3, rfl⟩, h4⟩
    · rintro ⟨s, ⟨h5, rfl⟩ | ⟨t, h5, h6⟩, h7⟩
      · rw [(sscanfClass_iff _ _ _).mpr ⟨s, h5, h7⟩]
      · rw [(sscanfRangeClass_iff _ _ _ _).mpr ⟨t, s, h5, h6, h7⟩] at h1
        cases h1

theorem scanEmojiLine_iff (line : GoString) (lo hi : Int) : scanEmojiLine line = some (lo, hi) ↔
    line.head? ≠ some 0x23 ∧ 0xFF ≤ hi ∧ ∃ rest, StartsWithRange line lo hi rest ∧ FieldEnd rest := by
  have hif : ∀ a b : Int, (if b < 0xff then none else some (a, b)) = some (lo, hi) ↔ 0xFF ≤ hi ∧ a = lo ∧ b = hi := by
    intro a b
    by_cases hb : b < 0xff
    · rw [if_pos hb]
      simp only [reduceCtorEq, false_iff]
      rintro ⟨h1, _, rfl⟩
      omega
    · rw [if_neg hb]
      simp only [Option.some.injEq, Prod.mk.injEq]
      constructor
      · rintro ⟨rfl, rfl⟩
        exact ⟨by omega, rfl, rfl⟩
      · exact fun h => h.2
  unfold scanEmojiLine
  by_cases hh : line.head? = some 0x23
  · simp [(hash_prefix line).mpr hh, hh]
  rw [if_neg (by rw [hash_prefix]; exact hh)]
  simp only [ne_eq, hh, not_false_eq_true, true_and]
  cases h1 : sscanfRange line with
  | some r =>
    obtain ⟨a', b'⟩ := r
    obtain ⟨t, s, h2, h3, h4⟩ := (sscanfRange_iff _ _ _).mp h1
    dsimp only
    rw [hif]
    refine and_congr_right fun _ => ?_
    constructor
    · rintro ⟨rfl, rfl⟩
      exact ⟨s, .inr ⟨t, h2, h3⟩, h4⟩
    · rintro ⟨s', ⟨h5, _⟩ | ⟨t', h5, h6⟩, h7⟩
      · have := (startsWithNumber_unique h2 h5).2
        rw [← this] at h7
        exact absurd h7 (fieldEnd_not_dots t)
      · have := (sscanfRange_iff _ _ _).mpr ⟨t', s', h5, h6, h7⟩
        rw [h1] at this
        simpa using this
  | none =>
    have hr : ∀ t s, StartsWithNumber line lo ([0x2E, 0x2E] ++ t) → StartsWithNumber t hi s → ¬ FieldEnd s := by
      intro t s h5 h6 h7
      rw [(sscanfRange_iff _ _ _).mpr ⟨t, s, h5, h6, h7⟩] at h1
      cases h1
    cases h2 : sscanfOne line with
    | none =>
      simp only [reduceCtorEq, false_iff]
      rintro ⟨_, s, ⟨h5, rfl⟩ | ⟨t, h5, h6⟩, h7⟩
      · rw [(sscanfOne_iff _ _).mpr ⟨s, h5, h7⟩] at h2
        cases h2
      · exact hr t s h5 h6 h7
    | some a =>
      dsimp only
      rw [hif]
      refine and_congr_right fun _ => ?_
      obtain ⟨s, h3, h4⟩ := (sscanfOne_iff _ _).mp h2
      constructor
      · rintro ⟨rfl, rfl⟩
        exact ⟨s, .inl ⟨h3, rfl⟩, h4⟩
      · rintro ⟨s, ⟨h5, rfl⟩ | ⟨t, h5, h6⟩, h7⟩
        · have := (startsWithNumber_unique h3 h5).1
          exact ⟨this, this⟩
        · exact absurd h7 (hr t s h5 h6)

end GoTable
