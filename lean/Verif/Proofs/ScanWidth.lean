import Verif.Proofs.Scan
import Verif.Proofs.U16
/-! Widths of texts cut at their escape sequences. -/

namespace GoTable
open Spec

theorem body_printable {b : GoString} (h : EscapeBody b) : printableASCII b ∧ b ≠ [] := by
  constructor
  · obtain ⟨a, ha, he⟩ := ansiTail.run_ascii ansiTail_ascii b []
      ((Regex.run_lang _ ansiTail_ascii _ _).mpr ⟨b, (lang_body b).mpr h, by simp⟩)
    rw [List.append_nil] at he
    rw [he]; exact ha
  · obtain ⟨pre, ps, fin, rfl, _⟩ := h
    simp

/-- An escape sequence is a control character and printable ASCII. -/
theorem escape_shape {e : GoString} (he : EscapeSequence e) :
    ∃ (c : Nat) (body : GoString), classOf c = .control ∧ (∀ f, runeWidth f c = 0) ∧ printableASCII body ∧ body ≠ [] ∧
      startsClean e = true ∧ (∀ t, runes (e ++ t) = c :: (body.map UInt8.toNat ++ runes t)) ∧
      (if LedBy9b e then e.length = body.length + 2 else e.length = body.length + 1) := by
  obtain ⟨lead, body, rfl, hl, hb⟩ := (escape_iff e).mp he
  obtain ⟨h1, h2⟩ := body_printable hb
  simp only [introducers, List.mem_cons, List.not_mem_nil, or_false] at hl
  rcases hl with rfl | rfl
  · refine ⟨0x1B, body, classOf_esc, fun f => runeWidth_control f _ (by decide), h1, h2, by rfl, ?_, ?_⟩
    · intro t
      rw [List.append_assoc, List.singleton_append, runes_ascii_cons _ _ (by decide), runes_printable_append h1]
      rfl
    · rw [if_neg]
      · simp
      · rintro ⟨u, hu⟩; simp at hu
  · refine ⟨0x9B, body, classOf_9b, fun f => runeWidth_control f _ (by decide), h1, h2, by rfl, ?_, ?_⟩
    · intro t
      rw [List.append_assoc, runes_of_ne_nil (by simp),
        show decodeRune ([0xC2, 0x9B] ++ (body ++ t)) = (0x9B, 2) from rfl]
      rw [← runes_printable_append h1]
      rfl
    · rw [if_pos ⟨body, rfl⟩]; simp

theorem getLast?_append_ne {α : Type} (a b : List α) (h : b ≠ []) : (a ++ b).getLast? = b.getLast? := by
  rw [List.getLast?_append]
  cases hb : b.getLast? with
  | none => simp at hb; exact absurd hb h
  | some x => rfl

theorem printable_classes {body : GoString} (h1 : printableASCII body) (h2 : body ≠ []) :
    ((body.map UInt8.toNat).map classOf).getLast? = some .other := by
  have hne : (body.map UInt8.toNat).map classOf ≠ [] := by simpa using h2
  rw [List.getLast?_eq_some_getLast hne]
  have hm := List.getLast_mem hne
  obtain ⟨n, hn, hc⟩ := List.mem_map.mp hm
  obtain ⟨b, hb, rfl⟩ := List.mem_map.mp hn
  rw [← hc, classOf_ascii _ (h1 b hb).1 (h1 b hb).2]

/-- Width of text, an escape sequence and more text. -/
theorem stringWidth_escape (f : Flags) (u t e : GoString) (he : EscapeSequence e) (ht : ¬ StartsExtending t) :
    (stringWidth f (u ++ (e ++ t)) : Int) =
      stringWidth f u + ((e.length - 1 : Nat) : Int) - (if LedBy9b e then 1 else 0) + stringWidth f t := by
  obtain ⟨c, body, hc, hw, h1, h2, hclean, hr, hlen⟩ := escape_shape he
  have hcl : startsClean (e ++ t) = true := by
    obtain ⟨b, u, rfl, hb⟩ := escape_starts he
    simp [startsClean, hb]
  have hlast := printable_classes h1 h2
  have key : stringWidth f (u ++ (e ++ t)) = stringWidth f u + body.length + stringWidth f t := by
    rw [stringWidth_eq_sw, stringWidth_eq_sw f u, stringWidth_eq_sw f t, runes_append _ _ hcl, hr]
    have e1 : runes u ++ c :: (body.map UInt8.toNat ++ runes t) =
      (runes u ++ ([c] ++ body.map UInt8.toNat)) ++ runes t := by simp
    rw [e1, sw_append _ _ (runes t)]
    · rw [sw_append _ (runes u)]
      · rw [sw_append_ascii f _ _ (by
            intro r hr
            obtain ⟨x, hx, rfl⟩ := List.mem_map.mp hr
            exact h1 x hx) (by simp [hc]), sw_singleton, hw]
        simp
      · rintro _ r rs he
        obtain ⟨rfl, rfl⟩ := List.cons.inj he
        rw [hc]; exact breaks_control _
    · rintro _ r rs he
      have hr : ¬ (classOf r = .extend ∨ classOf r = .zwj ∨ classOf r = .spacingMark) :=
        fun h => ht ⟨r, by rw [he]; rfl, h⟩
      refine breaks_after_other _ _ ?_ (fun h => hr (Or.inl h)) (fun h => hr (Or.inr (Or.inl h)))
        (fun h => hr (Or.inr (Or.inr h)))
      rw [List.map_append, getLast?_append_ne _ _ (by simp), List.map_append,
        getLast?_append_ne _ _ (by simpa using h2), hlast]
  have hpos := List.length_pos_iff.mpr h2
  rw [key]
  split at hlen <;> split <;> first | (push_cast; omega) | contradiction

theorem startsExtending_cut {s t0 : GoString} {l : List (GoString × GoString)} (h : Cut s t0 l)
    (ht : ¬ StartsExtending t0) : ¬ StartsExtending s := by
  cases h with
  | plain => exact ht
  | escape t e s t' l hn hl hc =>
    rintro ⟨r, hr, hcl⟩
    obtain ⟨c, body, hc, hw, h1, h2, hclean, hrr, hlen⟩ := escape_shape hl.1
    have hcl' : startsClean (e ++ s) = true := by
      obtain ⟨b, u, rfl, hb⟩ := escape_starts hl.1
      simp [startsClean, hb]
    rw [runes_append _ _ hcl', hrr] at hr
    cases hx : runes t0 with
    | nil =>
      rw [hx] at hr
      simp at hr
      subst hr
      rw [hc] at hcl
      simp at hcl
    | cons x xs =>
      rw [hx] at hr
      exact ht ⟨r, by rw [hx]; exact hr, hcl⟩

theorem stringWidth_cut (f : Flags) {s t0 : GoString} {l : List (GoString × GoString)} (h : Cut s t0 l)
    (hl : ∀ p ∈ l, ¬ StartsExtending p.2) :
    (stringWidth f s : Int) = stringWidth f t0 + ((l.map fun p => stringWidth f p.2).sum : Nat) +
      ((l.map fun p => p.1.length - 1).sum : Nat) - (l.countP fun p => LedBy9b p.1) := by
  induction h with
  | plain t _ => simp
  | escape t e s t' l hn hlong hc ih =>
    have h1 := ih (fun p hp => hl p (List.mem_cons_of_mem _ hp))
    have h2 := startsExtending_cut hc (hl (e, t') (by simp))
    rw [stringWidth_escape f t s e hlong.1 h2, h1, List.map_cons, List.map_cons, List.sum_cons, List.sum_cons,
      List.countP_cons]
    push_cast
    simp only [decide_eq_true_eq]
    split <;> omega

/-! ### Extending characters after an escape sequence -/

theorem runes_skipExtending (s : GoString) : runes (skipExtending s) = (runes s).dropWhile fun r => Extending r := by
  have h : ∀ l : List (Nat × Nat), ∃ k, (l.takeWhile fun k => Extending k.1) = l.take k ∧
      ((l.map Prod.fst).dropWhile fun r => Extending r) = (l.map Prod.fst).drop k := by
    intro l
    induction l with
    | nil => exact ⟨0, rfl, rfl⟩
    | cons x l ih =>
      obtain ⟨k, h1, h2⟩ := ih
      by_cases hx : Extending x.1
      · exact ⟨k + 1, by simp [hx, h1], by simp [hx, h2]⟩
      · exact ⟨0, by simp [hx], by simp [hx]⟩
  obtain ⟨k, h1, h2⟩ := h (tokens s)
  unfold skipExtending
  rw [h1]
  show runes (s.drop (off s k)) = _
  rw [runes_drop_off]
  exact h2.symm

theorem from_other (c : GCB) :
    ((c = .extend ∨ c = .zwj ∨ c = .spacingMark) → (transitionProp (0 : Nat) (gcbCode c)).boundary = false ∧
      (transitionProp (0 : Nat) (gcbCode c)).newState = 0) ∧
    (¬ (c = .extend ∨ c = .zwj ∨ c = .spacingMark) → (transitionProp (0 : Nat) (gcbCode c)).boundary = true ∧
      (transitionProp (0 : Nat) (gcbCode c)).newState = (transitionProp (-1) (gcbCode c)).newState) := by
  have H : ∀ c ∈ allGCB,
    ((c = .extend ∨ c = .zwj ∨ c = .spacingMark) → (transitionProp (0 : Nat) (gcbCode c)).boundary = false ∧
      (transitionProp (0 : Nat) (gcbCode c)).newState = 0) ∧
    (¬ (c = .extend ∨ c = .zwj ∨ c = .spacingMark) → (transitionProp (0 : Nat) (gcbCode c)).boundary = true ∧
      (transitionProp (0 : Nat) (gcbCode c)).newState = (transitionProp (-1) (gcbCode c)).newState) := by
    decide +kernel
  exact H c (mem_allGCB c)

/-- After a character of class Other that has a width, extending characters have none. -/
theorem swFrom_other (w : Nat → Nat) (cw : Nat) (hcw : 0 < cw) (rs : List Nat) :
    swFrom w 0 cw rs = cw + sw w (rs.dropWhile fun r => Extending r) := by
  induction rs with
  | nil => simp [swFrom]
  | cons r rs ih =>
    have hT := T_eq (0 : Nat) r
    obtain ⟨h1, h2⟩ := from_other (classOf r)
    by_cases hr : Extending r
    · have := h1 hr
      rw [swFrom, hT, this.1, this.2, if_pos hcw]
      simp only [Bool.false_eq_true, if_false, List.dropWhile_cons, hr, decide_true, if_true]
      exact ih
    · have := h2 hr
      rw [swFrom, hT, this.1, this.2, if_pos rfl, List.dropWhile_cons, decide_eq_false hr]
      simp only [Bool.false_eq_true, if_false]
      rw [sw_cons, T_eq]

/-- Width of text, an escape sequence and more text, whatever it starts with. -/
theorem stringWidth_escape_any (f : Flags) (u t e : GoString) (he : EscapeSequence e) :
    (stringWidth f (u ++ (e ++ t)) : Int) =
      stringWidth f u + ((e.length - 1 : Nat) : Int) - (if LedBy9b e then 1 else 0) +
        stringWidth f (skipExtending t) := by
  obtain ⟨c, body, hc, hw, h1, h2, hclean, hr, hlen⟩ := escape_shape he
  have hcl : startsClean (e ++ t) = true := by
    obtain ⟨b, u, rfl, hb⟩ := escape_starts he
    simp [startsClean, hb]
  have key : stringWidth f (u ++ (e ++ t)) = stringWidth f u + body.length + stringWidth f (skipExtending t) := by
    rw [stringWidth_eq_sw, stringWidth_eq_sw f u, stringWidth_eq_sw f (skipExtending t), runes_append _ _ hcl, hr,
      runes_skipExtending]
    obtain ⟨init, x, rfl⟩ : ∃ init x, body = init ++ [x] := ⟨_, _, (List.dropLast_concat_getLast h2).symm⟩
    have hx := h1 x (by simp)
    have hxc := classOf_ascii x.toNat hx.1 hx.2
    have hi : ∀ r ∈ init.map UInt8.toNat, 0x20 ≤ r ∧ r ≤ 0x7E := by
      intro r hr
      obtain ⟨y, hy, rfl⟩ := List.mem_map.mp hr
      exact h1 y (by simp [hy])
    have e1 : runes u ++ c :: ((init ++ [x]).map UInt8.toNat ++ runes t) =
      (runes u ++ ([c] ++ init.map UInt8.toNat)) ++ (x.toNat :: runes t) := by simp
    rw [e1, sw_append _ _ (x.toNat :: runes t)]
    · rw [sw_append _ (runes u)]
      · rw [sw_append_ascii f _ _ hi (by simp [hc]), sw_singleton, hw, sw_cons, runeWidth_ascii f _ hx.1 hx.2, T_eq, hxc,
          show (transitionProp (-1) (gcbCode .other)).newState = 0 by decide +kernel, swFrom_other _ _ Nat.one_pos]
        simp
        omega
      · rintro _ r rs he
        obtain ⟨rfl, rfl⟩ := List.cons.inj he
        rw [hc]; exact breaks_control _
    · rintro _ r rs he
      obtain ⟨rfl, rfl⟩ := List.cons.inj he
      rw [hxc]
      refine breaks_other _ ?_
      rw [List.map_append, getLast?_append_ne _ _ (by simp), List.map_append]
      by_cases hin : init = []
      · subst hin; simp [hc]
      · rw [getLast?_append_ne _ _ (by simpa using hin), printable_classes (fun b hb => h1 b (by simp [hb])) hin]
        simp
  have hpos := List.length_pos_iff.mpr h2
  rw [key]
  split at hlen <;> split <;> first | (push_cast; omega) | contradiction

theorem skipExtending_escape {t e s : GoString} (he : EscapeSequence e) :
    skipExtending (t ++ (e ++ s)) = skipExtending t ++ (e ++ s) := by
  obtain ⟨c, body, hc, hw, h1, h2, hclean, hr, hlen⟩ := escape_shape he
  have hcl : startsClean (e ++ s) = true := by
    obtain ⟨b, u, rfl, hb⟩ := escape_starts he
    simp [startsClean, hb]
  unfold skipExtending
  have htok : ((tokens (t ++ (e ++ s))).takeWhile fun k => Extending k.1) =
      (tokens t).takeWhile fun k => Extending k.1 := by
    rw [tokens_append _ _ hcl]
    have hnot : ∀ k ∈ (tokens (e ++ s)).head?, ¬ Extending k.1 := by
      intro k hk
      have : k.1 ∈ (runes (e ++ s)).head? := by
        rw [runes, List.head?_map]; simp only [Option.mem_def] at hk; rw [hk]; rfl
      rw [hr] at this
      simp only [List.head?_cons, Option.mem_def, Option.some.injEq] at this
      rw [← this]; unfold Extending; rw [hc]; simp
    generalize tokens t = l
    induction l with
    | nil =>
      cases ht : tokens (e ++ s) with
      | nil => rfl
      | cons k r => simp [hnot k (by simp [ht])]
    | cons x l ih =>
      by_cases hx : Extending x.1
      · simp [hx, ih]
      · simp [hx]
  rw [htok, List.drop_append_of_le_length]
  obtain ⟨k, hk⟩ : ∃ k, ((tokens t).takeWhile fun k => Extending k.1) = (tokens t).take k := by
    generalize tokens t = l
    induction l with
    | nil => exact ⟨0, rfl⟩
    | cons x l ih =>
      obtain ⟨k, ih⟩ := ih
      by_cases hx : Extending x.1
      · exact ⟨k + 1, by simp [hx, ih]⟩
      · exact ⟨0, by simp [hx]⟩
  rw [hk]
  exact off_le_length t k

theorem stringWidth_cut_any (f : Flags) {s t0 : GoString} {l : List (GoString × GoString)} (h : Cut s t0 l) :
    (stringWidth f s : Int) = stringWidth f t0 + ((l.map fun p => stringWidth f (skipExtending p.2)).sum : Nat) +
      ((l.map fun p => p.1.length - 1).sum : Nat) - (l.countP fun p => LedBy9b p.1) ∧
    (stringWidth f (skipExtending s) : Int) =
      stringWidth f (skipExtending t0) + ((l.map fun p => stringWidth f (skipExtending p.2)).sum : Nat) +
      ((l.map fun p => p.1.length - 1).sum : Nat) - (l.countP fun p => LedBy9b p.1) := by
  induction h with
  | plain t _ => simp
  | escape t e s t' l hn hlong hc ih =>
    rw [skipExtending_escape hlong.1, stringWidth_escape_any f t s e hlong.1,
      stringWidth_escape_any f (skipExtending t) s e hlong.1, ih.2, List.map_cons, List.map_cons, List.sum_cons,
      List.sum_cons, List.countP_cons]
    push_cast
    simp only [decide_eq_true_eq]
    constructor <;> split <;> omega

/-- Escape sequences that are recognised start and end cleanly, so text around them decodes as alone. -/
theorem runes_cut {s t0 : GoString} {l : List (GoString × GoString)} (h : Cut s t0 l) :
    ∀ r ∈ runes t0, r ∈ runes s := by
  cases h with
  | plain => exact fun r hr => hr
  | escape t e s t' l hn hl hc =>
    intro r hr
    have hcl' : startsClean (e ++ s) = true := by
      obtain ⟨b, u, rfl, hb⟩ := escape_starts hl.1
      simp [startsClean, hb]
    rw [runes_append _ _ hcl']
    exact List.mem_append_left _ hr

theorem no9b_cut {s t0 : GoString} {l : List (GoString × GoString)} (h : Cut s t0 l) (h9 : 0x9B ∉ runes s) :
    (l.countP fun p => LedBy9b p.1) = 0 := by
  induction h with
  | plain => rfl
  | escape t e s t' l hn hl hc ih =>
    obtain ⟨c, body, hcc, hw, h1, h2, hclean, hrr, hlen⟩ := escape_shape hl.1
    have hcl' : startsClean (e ++ s) = true := by
      obtain ⟨b, u, rfl, hb⟩ := escape_starts hl.1
      simp [startsClean, hb]
    rw [runes_append _ _ hcl'] at h9
    have h9a : 0x9B ∉ runes (e ++ s) := fun h => h9 (List.mem_append_right _ h)
    rw [List.countP_cons, ih (fun h => h9a (by rw [hrr]; exact List.mem_cons_of_mem _ (List.mem_append_right _ h))),
      if_neg]
    simp only [decide_eq_true_eq]
    rintro ⟨u, hu⟩
    apply h9a
    rw [← hu, List.append_assoc, runes_of_ne_nil (by simp)]
    simp only [List.mem_cons]
    left
    rfl

end GoTable
