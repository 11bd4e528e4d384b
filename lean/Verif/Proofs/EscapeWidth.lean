import Verif.Proofs.Escape
import Verif.Proofs.Subadd
/-! Width against escape sequences: no underflow, colour sequences. -/

namespace GoTable
open Spec

/-! ## What a match is made of -/

/-- Every class accepts only printable ASCII. -/
def Regex.AsciiOnly : Regex → Prop
  | .cls p => ∀ r, p r = true → 0x20 ≤ r ∧ r ≤ 0x7E
  | .cat a b => a.AsciiOnly ∧ b.AsciiOnly
  | .opt a => a.AsciiOnly
  | .star a => a.AsciiOnly

theorem printable_nil : printableASCII [] := by intro b hb; simp at hb

theorem printable_append {a b : GoString} (ha : printableASCII a) (hb : printableASCII b) :
    printableASCII (a ++ b) := by
  intro x hx
  rcases List.mem_append.mp hx with h | h
  · exact ha x h
  · exact hb x h

theorem starRun_ascii (f : GoString → List GoString)
    (hf : ∀ s, ∀ r ∈ f s, ∃ a, printableASCII a ∧ s = a ++ r) (s : GoString) :
    ∀ r ∈ starRun f s, ∃ a, printableASCII a ∧ s = a ++ r := by
  fun_induction starRun f s with
  | case1 s ih =>
    intro r hr
    rw [List.mem_append] at hr
    rcases hr with hr | hr
    · rw [List.mem_flatMap] at hr
      obtain ⟨s', hs', hr⟩ := hr
      split at hr
      · rename_i hlt
        obtain ⟨a, ha, rfl⟩ := ih s' hlt r hr
        obtain ⟨b, hb, rfl⟩ := hf _ _ hs'
        exact ⟨b ++ a, printable_append hb ha, by simp⟩
      · simp at hr
    · simp at hr; subst hr; exact ⟨[], printable_nil, rfl⟩

theorem Regex.run_ascii (re : Regex) (h : re.AsciiOnly) (s : GoString) :
    ∀ r ∈ re.run s, ∃ a, printableASCII a ∧ s = a ++ r := by
  induction re generalizing s with
  | cls p =>
    intro r hr
    cases s with
    | nil => simp [Regex.run] at hr
    | cons b t =>
      rw [Regex.run] at hr
      split at hr
      · rename_i hp
        simp only [List.mem_singleton] at hr
        subst hr
        have hra := h _ hp
        obtain ⟨hb, hd⟩ := decodeRune_lt_80 b t (by omega)
        rw [hd] at hra ⊢
        refine ⟨[b], ?_, rfl⟩
        intro x hx
        simp at hx
        subst hx
        exact hra
      · simp at hr
  | cat a b iha ihb =>
    intro r hr
    simp only [Regex.run, List.mem_flatMap] at hr
    obtain ⟨m, hm, hr⟩ := hr
    obtain ⟨x, hx, rfl⟩ := iha h.1 _ _ hm
    obtain ⟨y, hy, rfl⟩ := ihb h.2 _ _ hr
    exact ⟨x ++ y, printable_append hx hy, by simp⟩
  | opt a iha =>
    intro r hr
    simp only [Regex.run, List.mem_append, List.mem_singleton] at hr
    rcases hr with hr | rfl
    · exact iha h s r hr
    · exact ⟨[], printable_nil, rfl⟩
  | star a iha =>
    intro r hr
    exact starRun_ascii _ (iha h) s r hr

/-- What follows the introducer. -/
def ansiTail : Regex := .cat (.star (.cls ansiPrefix)) (.cat (.opt ansiParams) (.cls ansiFinal))

theorem ansiTail_ascii : ansiTail.AsciiOnly := by
  have h1 : ∀ r, ansiPrefix r = true → 0x20 ≤ r ∧ r ≤ 0x7E := by
    intro r h
    simp only [ansiPrefix, Bool.or_eq_true, beq_iff_eq] at h
    omega
  have h2 : ∀ r, isDigit r = true → 0x20 ≤ r ∧ r ≤ 0x7E := by
    intro r h
    simp only [isDigit, Bool.and_eq_true, decide_eq_true_eq] at h
    omega
  have h3 : ∀ r, isSemi r = true → 0x20 ≤ r ∧ r ≤ 0x7E := by
    intro r h
    simp only [isSemi, beq_iff_eq] at h
    omega
  have h4 : ∀ r, ansiFinal r = true → 0x20 ≤ r ∧ r ≤ 0x7E := by
    intro r h
    simp only [ansiFinal, Bool.or_eq_true, beq_iff_eq, Bool.and_eq_true, decide_eq_true_eq] at h
    omega
  exact ⟨h1, ⟨⟨h2, h2, h2, h2⟩, h3, h2, h2, h2, h2⟩, h4⟩

theorem run_esc (s : GoString) (r : GoString) (h : r ∈ ansiEscapeRE.run s) (h9 : 0x9B ∉ runes s) :
    ∃ a, printableASCII a ∧ s = 0x1B :: a ++ r := by
  cases s with
  | nil => rw [run_nil] at h; simp at h
  | cons b t =>
    have h' : r ∈ (Regex.cat (.cls ansiLead) ansiTail).run (b :: t) := h
    rw [Regex.run, List.mem_flatMap] at h'
    obtain ⟨m, hm, hr⟩ := h'
    rw [Regex.run] at hm
    split at hm
    · rename_i hl
      rw [runes_of_ne_nil (by simp), List.mem_cons, not_or] at h9
      have h1b : (decodeRune (b :: t)).1 = 0x1B := by
        simp only [ansiLead, Bool.or_eq_true, beq_iff_eq] at hl
        omega
      obtain ⟨hb, hd⟩ := decodeRune_lt_80 b t (by omega)
      rw [hd] at hm h1b
      simp at hm
      subst hm
      obtain ⟨a, ha, rfl⟩ := ansiTail.run_ascii ansiTail_ascii _ _ hr
      refine ⟨a, ha, ?_⟩
      have : b = 0x1B := by
        apply UInt8.toNat_inj.mp; simpa using h1b
      rw [this]; rfl
    · simp at hm

/-! ## No underflow -/

theorem other_from (st : Nat) (hst : st = 0 ∨ st = 2) : transitionProp st (gcbCode .other) = ⟨0, 0, true⟩ := by
  rcases hst with rfl | rfl <;> decide +kernel

theorem control_from (st : Nat) (hst : st ≤ 10) :
    (transitionProp st (gcbCode .control)).boundary = true ∧
    (transitionProp st (gcbCode .control)).newState = 2 := by
  have H : ∀ st : Nat, st < 11 → (transitionProp st (gcbCode .control)).boundary = true ∧
    (transitionProp st (gcbCode .control)).newState = 2 := by decide +kernel
  exact H st (by omega)

theorem from_control (c : GCB) : (transitionProp (2 : Nat) (gcbCode c)).boundary = true ∧
    (transitionProp (2 : Nat) (gcbCode c)).newState = (transitionProp (-1) (gcbCode c)).newState := by
  have H : ∀ c ∈ allGCB, (transitionProp (2 : Nat) (gcbCode c)).boundary = true ∧
    (transitionProp (2 : Nat) (gcbCode c)).newState = (transitionProp (-1) (gcbCode c)).newState := by
    decide +kernel
  exact H c (mem_allGCB c)

theorem sw_eq_swFrom (w : Nat → Nat) (rs : List Nat) : sw w rs = swFrom w 2 0 rs := by
  cases rs with
  | nil => rfl
  | cons r rs =>
    have := from_control (classOf r)
    rw [sw_cons, swFrom, T_eq, T_eq, if_pos this.1, this.2, Nat.zero_add]

theorem swFrom_ascii (f : Flags) (st cw X : Nat) (hst : st = 0 ∨ st = 2) (a R : List Nat)
    (ha : ∀ r ∈ a, 0x20 ≤ r ∧ r ≤ 0x7E)
    (hR : ∀ st' cw', st' ≤ 10 → cw' + X ≤ swFrom (fun r => runeWidth f r) st' cw' R) :
    cw + a.length + X ≤ swFrom (fun r => runeWidth f r) st cw (a ++ R) := by
  induction a generalizing st cw with
  | nil => exact hR st cw (by omega)
  | cons r a ih =>
    have hr := ha r (by simp)
    have h := ih 0 1 (Or.inl rfl) (fun x hx => ha x (List.mem_cons_of_mem _ hx))
    rw [List.cons_append, swFrom, T_eq, classOf_ascii r hr.1 hr.2, other_from st hst, if_pos rfl,
      runeWidth_ascii f r hr.1 hr.2, List.length_cons]
    dsimp only
    omega

theorem runes_printable_append {a : GoString} (ha : printableASCII a) (t : GoString) :
    runes (a ++ t) = a.map UInt8.toNat ++ runes t := by
  induction a with
  | nil => rfl
  | cons x a iha =>
    have := ha x (by simp)
    rw [List.cons_append, runes_ascii_cons _ _ (by omega), iha (fun y hy => ha y (List.mem_cons_of_mem _ hy))]
    rfl

theorem cnt_le_swFrom (f : Flags) (s : GoString) (h9 : 0x9B ∉ runes s) (st cw : Nat) (hst : st ≤ 10) :
    cw + cnt s ≤ swFrom (fun r => runeWidth f r) st cw (runes s) := by
  induction hn : s.length using Nat.strongRecOn generalizing s st cw with
  | _ n ih =>
    by_cases hs : s = []
    · subst hs; simp [runes_nil, swFrom]
    have hsz := decodeRune_size s hs
    cases hm : ansiEscapeRE.run s with
    | nil =>
      rw [cnt_none hm hs]
      rw [runes_of_ne_nil hs] at h9 ⊢
      have h9' : 0x9B ∉ runes (s.drop (decodeRune s).2) := fun h => h9 (List.mem_cons_of_mem _ h)
      have IH := fun st' cw' hst' => ih _ (by rw [← hn, List.length_drop]; omega)
        (s.drop (decodeRune s).2) h9' st' cw' hst' rfl
      rw [swFrom]
      split
      · have := IH (T st (decodeRune s).1).newState (runeWidth f (decodeRune s).1) (T_newState_le _ _)
        omega
      · have := IH (T st (decodeRune s).1).newState
          (if 0 < cw then cw else runeWidth f (decodeRune s).1) (T_newState_le _ _)
        split at this <;> split <;> omega
    | cons rest tl =>
      rw [cnt_match hm]
      obtain ⟨a, ha, rfl⟩ := run_esc s rest (by rw [hm]; simp) h9
      rw [List.cons_append, runes_ascii_cons _ _ (by decide)] at h9 ⊢
      have hra := runes_printable_append ha rest
      rw [hra] at h9 ⊢
      have h9' : 0x9B ∉ runes rest := fun h => h9 (List.mem_cons_of_mem _ (List.mem_append_right _ h))
      have hc := control_from st hst
      rw [swFrom, T_eq, show classOf (0x1B : UInt8).toNat = .control from classOf_esc, if_pos hc.1, hc.2]
      have := swFrom_ascii f 2 (runeWidth f (0x1B : UInt8).toNat) (cnt rest) (Or.inr rfl) (a.map UInt8.toNat)
        (runes rest) (by
          intro r hr
          obtain ⟨x, hx, rfl⟩ := List.mem_map.mp hr
          exact ha x hx)
        (fun st' cw' hst' => ih _ (by rw [← hn]; simp; omega) rest h9' st' cw' hst' rfl)
      simp only [List.length_map, List.length_append, List.length_cons] at this ⊢
      omega

theorem cnt_le_stringWidth (f : Flags) (s : GoString) (h9 : 0x9B ∉ runes s) : cnt s ≤ stringWidth f s := by
  rw [stringWidth_eq_sw, sw_eq_swFrom]
  have := cnt_le_swFrom f s h9 2 0 (by omega)
  omega

end GoTable
