import Verif.Proofs.ScanWidth
/-!
# Properties of escape sequences in texts: C51, C52, C53
-/

namespace GoTable
open Spec

/-! ## C51 -/

/-- C51. Every text can be cut at its escape sequences, in only one way, and what its visual width leaves out
of `StringWidth` is all but the first byte of each of them. -/
theorem C51_escapes_left_out (f : Flags) (s : GoString) :
    (∃ t0 l, Cut s t0 l) ∧
    ∀ t0 l, Cut s t0 l →
      (∀ t0' l', Cut s t0' l' → t0' = t0 ∧ l' = l) ∧
      s = t0 ++ (l.flatMap fun p => p.1 ++ p.2) ∧
      ((visualWidth f s).toNat : Int) =
        ((stringWidth f s : Int) - ((l.map fun p => p.1.length - 1).sum : Nat)) % 65536 ∧
      countMatchesLength s = ((l.map fun p => p.1.length - 1).sum : Nat) := by
  refine ⟨⟨_, _, cut_exists s⟩, fun t0 l h => ⟨fun t0' l' h' => cut_unique h' h, cut_whole h, ?_, ?_⟩⟩
  · rw [visualWidth_eq, u16_toNat, cnt_cut h]
  · rw [countMatchesLength_eq, cnt_cut h]

theorem escapeSequence_csi (ps : GoString) (fin : UInt8) (hp : ps = [] ∨ Params ps)
    (hf : fin ∈ lit "0123456789ABCDEFGHIJKLMNORZcfghijklmnqry=><") :
    EscapeSequence ([0x1B, 0x5B] ++ (ps ++ [fin])) :=
  ⟨[0x1B], [0x5B], ps, fin, rfl, by simp [introducers], by decide +kernel, hp, hf⟩

/-- A text with a colour, a charset switch, a bare ESC and a cut off sequence: two escape sequences. -/
example : ∃ t0 l, Cut (lit "a\x1b[31mb\x1b(Bc\x1bd\x1b[") t0 l ∧ t0 = lit "a" ∧
    l = [(lit "\x1b[31m", lit "b"), (lit "\x1b(B", lit "c\x1bd\x1b[")] ∧
    EscapeSequence (lit "\x1b[31m") :=
  ⟨_, _, cut_exists _, by decide +kernel, by decide +kernel, by
    have h := escapeSequence_csi (lit "31") 0x6D
      (Or.inr ⟨lit "31", [], by decide +kernel, by unfold Param; decide +kernel, by simp, by simp⟩) (by decide +kernel)
    have e : lit "\x1b[31m" = [0x1B, 0x5B] ++ (lit "31" ++ [0x6D]) := by decide +kernel
    rw [e]; exact h⟩

/-! ## C52 -/

/-- C52. The visual width is the width of the plain texts, less one for each sequence led by U+009B,
modulo 2^16; no plain text after an escape sequence may start with an extending character. -/
theorem C52_visible_width (f : Flags) (s t0 : GoString) (l : List (GoString × GoString)) (h : Cut s t0 l)
    (hl : ∀ p ∈ l, ¬ StartsExtending p.2) :
    ((visualWidth f s).toNat : Int) =
      (((stringWidth f t0 + (l.map fun p => stringWidth f p.2).sum : Nat) : Int) -
        (l.countP fun p => LedBy9b p.1)) % 65536 := by
  rw [visualWidth_eq, u16_toNat, cnt_cut h, stringWidth_cut f h hl]
  congr 1
  push_cast
  omega

/-- C52, for every text: extending characters that follow an escape sequence have no width. -/
theorem C52_exact (f : Flags) (s t0 : GoString) (l : List (GoString × GoString)) (h : Cut s t0 l) :
    ((visualWidth f s).toNat : Int) =
      (((stringWidth f t0 + (l.map fun p => stringWidth f (skipExtending p.2)).sum : Nat) : Int) -
        (l.countP fun p => LedBy9b p.1)) % 65536 := by
  rw [visualWidth_eq, u16_toNat, cnt_cut h, (stringWidth_cut_any f h).1]
  congr 1
  push_cast
  omega

/-- Two marks after a sequence; the letter after them counts. -/
example :
    let s := lit "中\x1b[1mﾞ\u0308x\x1b[0mﾞ"
    let c := cutLoop [] s
    Cut s c.1 c.2 ∧ (c.2.map fun p => skipExtending p.2) = [lit "x", []] ∧ visualWidth ⟨false, true⟩ s = 3 ∧
    stringWidth ⟨false, true⟩ (lit "ﾞ\u0308x") = 2 := by
  refine ⟨cut_exists _, ?_, ?_, ?_⟩ <;> decide +kernel

/-- C52, without U+009B: exactly the width of the plain texts. -/
theorem C52_visible_width_esc (f : Flags) (s t0 : GoString) (l : List (GoString × GoString)) (h : Cut s t0 l)
    (hl : ∀ p ∈ l, ¬ StartsExtending p.2) (h9 : 0x9B ∉ runes s) :
    visualWidth f s = UInt16.ofNat (stringWidth f t0 + (l.map fun p => stringWidth f p.2).sum) := by
  have := C52_visible_width f s t0 l h hl
  rw [no9b_cut h h9] at this
  rw [← UInt16.toNat_inj, UInt16.toNat_ofNat']
  omega

/-- Three sequences, one of them led by U+009B. -/
example :
    let s := lit "中\x1b[1;31mab\u009b0mc\x1b[?25l"
    let c := cutLoop [] s
    Cut s c.1 c.2 ∧ (∀ p ∈ c.2, ¬ StartsExtending p.2) ∧ c.2.length = 3 ∧
    (c.2.countP fun p => LedBy9b p.1) = 1 ∧ visualWidth ⟨false, true⟩ s = 4 := by
  refine ⟨cut_exists _, ?_, ?_, ?_, ?_⟩ <;> decide +kernel

/-- The condition is needed: an extending character after an escape sequence goes into the cluster of the
final letter, and its own width is lost. U+FF9E is a half-width katakana mark of width 1. -/
theorem C52_lost_after_escape :
    visualWidth ⟨false, true⟩ (lit "\x1b[0mﾞ") = 0 ∧ stringWidth ⟨false, true⟩ (lit "ﾞ") = 1 := by
  decide +kernel

/-! ## C53 -/

theorem tokens_printable_append {a : GoString} (ha : printableASCII a) (t : GoString) :
    ∃ pre, tokens (a ++ t) = pre ++ tokens t := by
  induction a with
  | nil => exact ⟨[], rfl⟩
  | cons x a iha =>
    have := ha x (by simp)
    obtain ⟨pre, h⟩ := iha (fun y hy => ha y (List.mem_cons_of_mem _ hy))
    exact ⟨_ :: pre, by rw [List.cons_append, tokens_ascii_cons _ _ (by omega), h]; rfl⟩

theorem tokens_escape {e : GoString} (he : EscapeSequence e) (t : GoString) :
    ∃ pre, tokens (e ++ t) = pre ++ tokens t := by
  obtain ⟨lead, body, rfl, hl, hb⟩ := (escape_iff e).mp he
  obtain ⟨pre, h⟩ := tokens_printable_append (body_printable hb).1 t
  simp only [introducers, List.mem_cons, List.not_mem_nil, or_false] at hl
  rcases hl with rfl | rfl
  · refine ⟨(0x1B, 1) :: pre, ?_⟩
    rw [List.append_assoc, List.singleton_append, tokens_ascii_cons _ _ (by decide), h]; rfl
  · refine ⟨(0x9B, 2) :: pre, ?_⟩
    rw [List.append_assoc, tokens_of_ne_nil (by simp),
      show decodeRune ([0xC2, 0x9B] ++ (body ++ t)) = (0x9B, 2) from rfl]
    exact congrArg _ h

theorem startsClean_of_no_error {s : GoString} (h : (runeError, 1) ∉ tokens s) : startsClean s = true := by
  cases s with
  | nil => rfl
  | cons b t =>
    by_contra hb
    simp only [startsClean, Bool.not_eq_true', Bool.not_eq_false] at hb
    apply h
    rw [tokens_of_ne_nil (by simp)]
    have : decodeRune (b :: t) = (runeError, 1) := by
      simp only [isCont, Bool.and_eq_true, decide_eq_true_eq] at hb
      unfold decodeRune
      dsimp only
      rw [if_neg (by omega), if_pos (by omega)]
    rw [this]; simp

theorem cut_clean {s t0 : GoString} {l : List (GoString × GoString)} (h : Cut s t0 l)
    (hv : (runeError, 1) ∉ tokens s) : startsClean t0 = true ∧ ∀ p ∈ l, startsClean p.2 = true := by
  induction h with
  | plain t _ => exact ⟨startsClean_of_no_error hv, by simp⟩
  | escape t e s t' l hn hl hc ih =>
    have hcl' : startsClean (e ++ s) = true := by
      obtain ⟨b, u, rfl, hb⟩ := escape_starts hl.1
      simp [startsClean, hb]
    rw [tokens_append _ _ hcl'] at hv
    obtain ⟨pre, hpre⟩ := tokens_escape hl.1 s
    rw [hpre] at hv
    simp only [List.mem_append, not_or] at hv
    have := ih hv.2.2
    refine ⟨startsClean_of_no_error hv.1, ?_⟩
    intro p hp
    rcases List.mem_cons.mp hp with rfl | hp
    · exact this.1
    · exact this.2 p hp

theorem plainText_cons (t e t' : GoString) (l : List (GoString × GoString)) :
    plainText t ((e, t') :: l) = t ++ plainText t' l := by simp [plainText]

theorem startsClean_plainText {t : GoString} {l : List (GoString × GoString)} (h0 : startsClean t = true)
    (h : ∀ p ∈ l, startsClean p.2 = true) : startsClean (plainText t l) = true := by
  induction l generalizing t with
  | nil => simpa [plainText] using h0
  | cons p l ih =>
    obtain ⟨e, t'⟩ := p
    rw [plainText_cons]
    cases t with
    | nil => exact ih (h (e, t') (by simp)) (fun p hp => h p (List.mem_cons_of_mem _ hp))
    | cons b t => simpa [startsClean] using h0

theorem plainText_le (f : Flags) (t : GoString) (l : List (GoString × GoString))
    (h : ∀ p ∈ l, startsClean p.2 = true) :
    stringWidth f (plainText t l) ≤ stringWidth f t + (l.map fun p => stringWidth f p.2).sum := by
  induction l generalizing t with
  | nil => simp [plainText]
  | cons p l ih =>
    obtain ⟨e, t'⟩ := p
    have hc := startsClean_plainText (h (e, t') (by simp)) (fun p hp => h p (List.mem_cons_of_mem _ hp))
    have h1 := stringWidth_subadditive f t (plainText t' l) (runes_append _ _ hc)
    have h2 := ih t' (fun p hp => h p (List.mem_cons_of_mem _ hp))
    rw [plainText_cons, List.map_cons, List.sum_cons]
    dsimp only
    omega

/-- The first character, if any, is of class Other. -/
theorem head_plainText {t : GoString} {l : List (GoString × GoString)}
    (hc : ∀ p ∈ l, startsClean p.2 = true)
    (h0 : ∀ r, (runes t).head? = some r → classOf r = .other)
    (h : ∀ p ∈ l, ∀ r, (runes p.2).head? = some r → classOf r = .other) :
    ∀ r, (runes (plainText t l)).head? = some r → classOf r = .other := by
  induction l generalizing t with
  | nil => simpa [plainText] using h0
  | cons p l ih =>
    obtain ⟨e, t'⟩ := p
    have hc' := startsClean_plainText (hc (e, t') (by simp)) (fun p hp => hc p (List.mem_cons_of_mem _ hp))
    intro r hr
    rw [plainText_cons, runes_append _ _ hc'] at hr
    cases hx : runes t with
    | nil =>
      rw [hx, List.nil_append] at hr
      exact ih (fun p hp => hc p (List.mem_cons_of_mem _ hp)) (h (e, t') (by simp))
        (fun p hp => h p (List.mem_cons_of_mem _ hp)) r hr
    | cons x xs =>
      rw [hx] at hr
      exact h0 r (by rw [hx]; exact hr)

theorem plainText_eq (f : Flags) (t : GoString) (l : List (GoString × GoString))
    (hc : ∀ p ∈ l, startsClean p.2 = true)
    (h : ∀ p ∈ l, ∀ r, (runes p.2).head? = some r → classOf r = .other)
    (h0 : ¬ EndsInPrepend t) (he : ∀ p ∈ l, ¬ EndsInPrepend p.2) :
    stringWidth f (plainText t l) = stringWidth f t + (l.map fun p => stringWidth f p.2).sum := by
  induction l generalizing t with
  | nil => simp [plainText]
  | cons p l ih =>
    obtain ⟨e, t'⟩ := p
    have hc' := startsClean_plainText (hc (e, t') (by simp)) (fun p hp => hc p (List.mem_cons_of_mem _ hp))
    have hh := head_plainText (fun p hp => hc p (List.mem_cons_of_mem _ hp)) (h (e, t') (by simp))
        (fun p hp => h p (List.mem_cons_of_mem _ hp))
    rw [plainText_cons, List.map_cons, List.sum_cons, ← ih t' (fun p hp => hc p (List.mem_cons_of_mem _ hp))
      (fun p hp => h p (List.mem_cons_of_mem _ hp)) (he (e, t') (by simp))
      (fun p hp => he p (List.mem_cons_of_mem _ hp)), stringWidth_eq_sw, stringWidth_eq_sw f t,
      stringWidth_eq_sw f (plainText t' l), runes_append _ _ hc', sw_append]
    rintro _ r rs hr
    rw [hh r (by rw [hr]; rfl)]
    exact breaks_other _ h0

/-- C53. Measuring the text with its escape sequences taken out (the "method 3" of the source comments)
never gives more than the visual width, for valid UTF-8 without U+009B whose plain texts after escape
sequences do not start with an extending character. -/
theorem C53_stripped_not_wider (f : Flags) (s t0 : GoString) (l : List (GoString × GoString)) (h : Cut s t0 l)
    (hv : ValidUTF8 s) (h9 : 0x9B ∉ runes s) (hl : ∀ p ∈ l, ¬ StartsExtending p.2)
    (hs : stringWidth f s < 65536) :
    stringWidth f (plainText t0 l) ≤ (visualWidth f s).toNat := by
  have h1 := plainText_le f t0 l (cut_clean h (valid_no_error hv)).2
  have h2 := cnt_le_stringWidth f s h9
  have h3 := stringWidth_cut f h hl
  have h4 := no9b_cut h h9
  rw [← cnt_cut h, h4] at h3
  have h5 := u16_toNat ((stringWidth f s : Int) - (cnt s : Int))
  rw [← visualWidth_eq] at h5
  omega

/-- C53. It gives the same if besides every plain text after an escape sequence starts with a character
that never joins what is before it (class Other; letters, digits, punctuation, ideographs) and no plain
text ends in a Prepend character. -/
theorem C53_stripped_same (f : Flags) (s t0 : GoString) (l : List (GoString × GoString)) (h : Cut s t0 l)
    (hv : ValidUTF8 s) (h9 : 0x9B ∉ runes s)
    (hl : ∀ p ∈ l, ∀ r, (runes p.2).head? = some r → classOf r = .other)
    (h0 : ¬ EndsInPrepend t0) (he : ∀ p ∈ l, ¬ EndsInPrepend p.2) :
    visualWidth f s = UInt16.ofNat (stringWidth f (plainText t0 l)) := by
  rw [plainText_eq f t0 l (cut_clean h (valid_no_error hv)).2 hl h0 he]
  refine C52_visible_width_esc f s t0 l h ?_ h9
  rintro p hp ⟨r, hr, hc⟩
  rw [hl p hp r hr] at hc
  simp at hc

/-- A coloured file name as in the tests of the repository. -/
example :
    let s := lit "\x1b[38;5;1mさの\x1b[38;5;2m.png\x1b[0m"
    let c := cutLoop [] s
    Cut s c.1 c.2 ∧ ValidUTF8 s ∧ 0x9B ∉ runes s ∧
    (∀ p ∈ c.2, ∀ r ∈ (runes p.2).head?, classOf r = .other) ∧ ¬ EndsInPrepend c.1 ∧
    (∀ p ∈ c.2, ¬ EndsInPrepend p.2) ∧ plainText c.1 c.2 = lit "さの.png" ∧
    visualWidth ⟨false, true⟩ s = 8 := by
  refine ⟨cut_exists _, ⟨runes (lit "\x1b[38;5;1mさの\x1b[38;5;2m.png\x1b[0m"), ?_, ?_⟩, ?_, ?_, ?_, ?_, ?_, ?_⟩
  · unfold Scalar; decide +kernel
  all_goals decide +kernel

/-- It can give less: two halves of a flag, one of them coloured, are one flag once the escape sequence is
gone. -/
theorem C53_stripped_narrower :
    visualWidth ⟨false, true⟩ (lit "🇩\x1b[31m🇪") = 2 ∧ stringWidth ⟨false, true⟩ (lit "🇩🇪") = 1 := by
  decide +kernel

end GoTable
