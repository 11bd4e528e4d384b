import Verif.Proofs.Escape
import Verif.Proofs.Subadd
import Verif.Proofs.U16
import Verif.Proofs.UTF8
/-! Joining texts: control characters separate, growth is monotone. -/

namespace GoTable
open Spec

/-! ## Control characters -/

theorem classOf_c0 (r : Nat) (h : r < 0x20 ∨ r = 0x7F) :
    classOf r = if r = 0x0D then .cr else if r = 0x0A then .lf else .control := by
  have H : ∀ r ∈ 0x7F :: List.range 0x20, classOf r = if r = 0x0D then .cr else if r = 0x0A then .lf else .control := by
    decide +kernel
  apply H
  rcases h with h | h
  · exact List.mem_cons_of_mem _ (List.mem_range.mpr h)
  · rw [h]; simp

theorem breaks_before_control (left : List GCB) (c : GCB) (h : c = .control ∨ c = .cr ∨ c = .lf)
    (hcr : ¬ (left.getLast? = some .cr ∧ c = .lf)) : Breaks left c := ⟨hcr, Or.inr (Or.inl h)⟩

theorem breaks_after_controls (left : List GCB) (c : GCB)
    (h : left.getLast? = some .control ∨ left.getLast? = some .lf) : Breaks left c := by
  refine ⟨?_, Or.inl ?_⟩
  · rintro ⟨h1, _⟩
    rw [h1] at h; simp at h
  · rcases h with h | h
    · exact Or.inl h
    · exact Or.inr (Or.inr h)

/-- Widths add up across a control character of width 0 that is not a lone CR before LF. -/
theorem sw_across_control (w : Nat → Nat) (c : Nat) (hw : ∀ r, classOf r = .cr → w r = 0) (hwc : w c = 0)
    (hc : classOf c = .control ∨ classOf c = .cr ∨ classOf c = .lf) (a b : List Nat)
    (hb : classOf c = .cr → ∀ r, b.head? = some r → classOf r ≠ .lf) :
    sw w (a ++ c :: b) = sw w a + sw w b := by
  have hafter : sw w (a ++ [c]) = sw w a → sw w (a ++ c :: b) = sw w a + sw w b := by
    intro h
    rw [show a ++ c :: b = (a ++ [c]) ++ b by simp, sw_append, h]
    rintro _ r rs rfl
    rw [List.map_append]
    rcases hc with h | h | h
    · exact breaks_after_controls _ _ (Or.inl (by simp [h]))
    · refine ⟨?_, Or.inl (Or.inr (Or.inl (by simp [h])))⟩
      rintro ⟨_, h2⟩
      exact hb h r rfl h2
    · exact breaks_after_controls _ _ (Or.inr (by simp [h]))
  apply hafter
  by_cases hcr : (a.map classOf).getLast? = some .cr ∧ classOf c = .lf
  · have ha : a ≠ [] := by rintro rfl; simp at hcr
    obtain ⟨a', x, rfl⟩ : ∃ a' x, a = a' ++ [x] := ⟨a.dropLast, a.getLast ha, (List.dropLast_concat_getLast ha).symm⟩
    have hx : classOf x = .cr := by simpa using hcr.1
    have hbx : ∀ t, sw w (a' ++ x :: t) = sw w a' + sw w (x :: t) := by
      intro t
      apply sw_append
      rintro _ r rs he
      obtain ⟨rfl, rfl⟩ := List.cons.inj he
      exact breaks_before_control _ _ (by simp [hx]) (by simp [hx])
    have hle : sw w [x, c] = 0 := by
      have := sw_le_sum w [x, c]
      simp [hw x hx, hwc] at this
      exact this
    rw [List.append_assoc, List.singleton_append, hbx, hbx, hle, sw_singleton, hw x hx]
  · rw [sw_append, sw_singleton, hwc, Nat.add_zero]
    rintro _ r rs he
    obtain ⟨rfl, rfl⟩ := List.cons.inj he
    exact breaks_before_control _ _ hc hcr

theorem classOf_cr (r : Nat) (h : classOf r = .cr) : r = 0x0D := by
  have hp : gprop r = gcbCode .cr := by rw [gprop_eq_code, h]
  rcases propertySearch_correct _ graphemeCodePoints_sorted r with ⟨e, he, h1, h2, heq⟩ | ⟨_, heq⟩
  · have h3 : e.2.2 = gcbCode .cr := by
      rw [← hp]; unfold gprop property; rw [heq]
    have H : (graphemeCodePoints.all fun e => e.2.2 != gcbCode .cr || (e.1 == 0x0D && e.2.1 == 0x0D)) = true := by
      decide +kernel
    have := List.all_eq_true.mp H e he
    rw [h3] at this
    simp at this
    omega
  · unfold gprop property at hp; rw [heq] at hp; simp [gcbCode] at hp

/-- Widths add up across a control byte; a CR must not stand before an LF. -/
theorem stringWidth_across (f : Flags) (a b : GoString) (c : UInt8) (hc : c.toNat < 0x20 ∨ c.toNat = 0x7F)
    (hb : c = 0x0D → b.head? ≠ some 0x0A) :
    stringWidth f (a ++ c :: b) = stringWidth f a + stringWidth f b := by
  have hlt : c.toNat < 0x80 := by omega
  have hcl := classOf_c0 c.toNat hc
  rw [stringWidth_eq_sw, stringWidth_eq_sw f a, stringWidth_eq_sw f b,
    runes_append _ _ (startsClean_ascii_cons c b hlt), runes_ascii_cons c b hlt]
  apply sw_across_control
  · intro r hr
    rw [classOf_cr r hr]
    exact runeWidth_control f _ (by decide)
  · exact runeWidth_control f _ (by omega)
  · rw [hcl]; split
    · simp
    · split <;> simp
  · intro hcr r hr hlf
    have : c.toNat = 0x0D := classOf_cr _ hcr
    have hce : c = 0x0D := UInt8.toNat_inj.mp this
    cases b with
    | nil => simp at hr
    | cons x b =>
      rw [runes_of_ne_nil (by simp)] at hr
      simp only [List.head?_cons, Option.some.injEq] at hr
      have hr2 : r = 0x0A := by
        have hp : gprop r = gcbCode .lf := by rw [gprop_eq_code, hlf]
        rcases propertySearch_correct _ graphemeCodePoints_sorted r with ⟨e, he, h1, h2, heq⟩ | ⟨_, heq⟩
        · have h3 : e.2.2 = gcbCode .lf := by
            rw [← hp]; unfold gprop property; rw [heq]
          have H : (graphemeCodePoints.all fun e => e.2.2 != gcbCode .lf || (e.1 == 0x0A && e.2.1 == 0x0A)) = true := by
            decide +kernel
          have := List.all_eq_true.mp H e he
          rw [h3] at this
          simp at this
          omega
        · unfold gprop property at hp; rw [heq] at hp; simp [gcbCode] at hp
      subst hr2
      obtain ⟨hx, hd⟩ := decodeRune_lt_80 x b (by omega)
      rw [hd] at hr
      have : x = 0x0A := UInt8.toNat_inj.mp hr
      subst this
      exact hb hce rfl

/-- So do the bytes subtracted, unless the control byte is ESC. -/
theorem cnt_across (a b : GoString) (c : UInt8) (hc : c.toNat < 0x20 ∨ c.toNat = 0x7F) (he : c ≠ 0x1B) :
    cnt (a ++ c :: b) = cnt a + cnt b := by
  have hlt : c.toNat < 0x80 := by omega
  have hne : c.toNat ≠ 0x1B := fun h => he (UInt8.toNat_inj.mp h)
  have hst : stops c.toNat = true := by
    have H : ∀ r ∈ 0x7F :: List.range 0x20, r ≠ 0x1B → stops r = true := by decide +kernel
    apply H _ _ hne
    rcases hc with h | h
    · exact List.mem_cons_of_mem _ (List.mem_range.mpr h)
    · rw [h]; simp
  rw [cnt_append_stop a c b hlt hst]
  congr 1
  have hdec := decodeRune_ascii c b hlt
  rw [cnt_none (run_no_lead ?_) (by simp), hdec]
  · rfl
  · intro r hr
    rw [runes_ascii_cons _ _ hlt] at hr
    simp at hr
    omega

/-! ## Growth -/

theorem le_swFrom (w : Nat → Nat) (st cw : Nat) (b : List Nat) : cw ≤ swFrom w st cw b := by
  induction b generalizing st cw with
  | nil => simp [swFrom]
  | cons r b ih =>
    rw [swFrom]
    split
    · omega
    · have := ih (T st r).newState (if 0 < cw then cw else w r)
      split at this <;> split <;> omega

theorem sw_prefix_le (w : Nat → Nat) (k : Nat) (hk : 0 < k) (hw : ∀ r, classOf r = .ri → w r = k)
    (a b : List Nat) : sw w a ≤ sw w (a ++ b) := by
  cases a with
  | nil => simp
  | cons x a =>
    obtain ⟨base, cw, h3, h4, h5⟩ := swFrom_append w k hk hw (T (-1) x).newState (w x) a
      (T_newState_le _ _) (by
        intro h; rw [hw x (newState_nine_start x h)]; exact hk)
    rw [List.cons_append, sw_cons, sw_cons, h3, h5]
    have := le_swFrom w (foldSt (T (-1) x).newState a) cw b
    omega

theorem stringWidth_prefix_le (f : Flags) (a b : GoString) (h : startsClean b = true) :
    stringWidth f a ≤ stringWidth f (a ++ b) := by
  rw [stringWidth_eq_sw, stringWidth_eq_sw, runes_append _ _ h]
  exact sw_prefix_le _ 1 (by omega) (fun r hr => runeWidth_ri f r hr) _ _

theorem stringWidth_append_zero (f : Flags) (a b : GoString) (h : startsClean b = true)
    (hz : ∀ r ∈ runes b, runeWidth f r = 0) : stringWidth f (a ++ b) = stringWidth f a := by
  have h1 := stringWidth_prefix_le f a b h
  have h2 := stringWidth_subadditive f a b (runes_append a b h)
  have h3 : stringWidth f b = 0 := by
    have := sw_le_sum (fun r : Nat => runeWidth f r) (runes b)
    rw [stringWidth_eq_sw]
    have h0 : ∀ l : List Nat, (∀ r ∈ l, runeWidth f r = 0) → (l.map fun r : Nat => runeWidth f r).sum = 0 := by
      intro l
      induction l with
      | nil => simp
      | cons x l ih =>
        intro h
        rw [List.map_cons, List.sum_cons, h x (by simp), ih fun r hr => h r (List.mem_cons_of_mem _ hr)]
    have := h0 _ hz
    omega
  omega

end GoTable
