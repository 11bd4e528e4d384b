import Verif.Model.Width
import Verif.Proofs.Ascii
/-! Escape sequences: the matcher, and what is subtracted. -/

namespace GoTable
open Spec

/-! ## The loop as a recursion on the text -/

/-- Bytes subtracted: the match at the front if there is one, else move on by one character. -/
def cnt (s : GoString) : Nat :=
  match _hm : ansiEscapeRE.run s with
  | rest :: _ => (s.length - rest.length - 1) + cnt rest
  | [] => if _h : s = [] then 0 else cnt (s.drop (decodeRune s).2)
termination_by s.length
decreasing_by
  · exact ansiEscapeRE_run_lt s rest (by rw [_hm]; simp)
  · have := decodeRune_size s _h
    simp; omega

theorem cnt_match {s rest : GoString} {tl : List GoString} (h : ansiEscapeRE.run s = rest :: tl) :
    cnt s = (s.length - rest.length - 1) + cnt rest := by
  rw [cnt]
  split
  · rename_i r t hm
    rw [h] at hm
    obtain ⟨rfl, rfl⟩ := List.cons.inj hm
    rfl
  · rename_i hm; rw [h] at hm; simp at hm

theorem cnt_none {s : GoString} (h : ansiEscapeRE.run s = []) (hs : s ≠ []) :
    cnt s = cnt (s.drop (decodeRune s).2) := by
  rw [cnt]
  split
  · rename_i r t hm; rw [h] at hm; simp at hm
  · rw [dif_neg hs]

theorem run_nil : ansiEscapeRE.run [] = [] := by
  simp [ansiEscapeRE, Regex.run]

@[simp] theorem cnt_nil : cnt [] = 0 := by
  rw [cnt]
  split
  · rename_i r t hm; rw [run_nil] at hm; simp at hm
  · simp

theorem run_eq_drop {re : Regex} {s r : GoString} (h : r ∈ re.run s) : r = s.drop (s.length - r.length) := by
  obtain ⟨p, rfl⟩ := re.run_suffix s r h
  simp

theorem findFrom_cnt (pos : Nat) (s : GoString) :
    (ansiEscapeRE.findFrom pos s = none → cnt s = 0) ∧
    (∀ a b, ansiEscapeRE.findFrom pos s = some (a, b) →
      pos ≤ a ∧ a < b ∧ b ≤ pos + s.length ∧ cnt s = (b - a - 1) + cnt (s.drop (b - pos))) := by
  fun_induction Regex.findFrom ansiEscapeRE pos s with
  | case1 pos s rest tl heq =>
    refine ⟨by simp, fun a b h => ?_⟩
    simp only [Option.some.injEq, Prod.mk.injEq] at h
    obtain ⟨rfl, rfl⟩ := h
    have hmem : rest ∈ ansiEscapeRE.run s := by rw [heq]; simp
    have hlt := ansiEscapeRE_run_lt s rest hmem
    have hd := run_eq_drop hmem
    refine ⟨by omega, by omega, by omega, ?_⟩
    rw [cnt_match heq]
    have e1 : pos + (s.length - rest.length) - pos = s.length - rest.length := by omega
    rw [e1, ← hd]
  | case2 pos heq => simp
  | case3 pos s heq hne ih =>
    have hsz := decodeRune_size s hne
    rw [cnt_none heq hne]
    refine ⟨ih.1, fun a b h => ?_⟩
    obtain ⟨h1, h2, h3, h4⟩ := ih.2 a b h
    simp only [List.length_drop] at h3
    refine ⟨by omega, h2, by omega, ?_⟩
    rw [h4, List.drop_drop]
    congr 3
    omega

theorem countMatchesLoop_eq (s : GoString) (start : Nat) (total : Int) :
    countMatchesLoop s start total = total + cnt (s.drop start) := by
  fun_induction countMatchesLoop s start total with
  | case1 start total h hm =>
    rw [(findFrom_cnt 0 _).1 hm]; simp
  | case2 start total h loc hm ih =>
    have := (findFrom_cnt 0 _).2 loc.1 loc.2 hm
    rw [ih, this.2.2.2, List.drop_drop, Nat.sub_zero]
    omega
  | case3 start total h =>
    rw [List.drop_eq_nil_of_le (by omega)]; simp

theorem countMatchesLength_eq (s : GoString) : countMatchesLength s = cnt s := by
  rw [countMatchesLength, countMatchesLoop_eq]; simp

theorem visualWidth_eq (f : Flags) (s : GoString) :
    visualWidth f s = u16 ((stringWidth f s : Int) - (cnt s : Int)) := by
  rw [visualWidth, countMatchesLength_eq]

/-! ## No introducer, nothing subtracted -/

theorem run_no_lead {s : GoString} (h : ∀ r, (runes s).head? = some r → r ≠ 0x1B ∧ r ≠ 0x9B) :
    ansiEscapeRE.run s = [] := by
  cases s with
  | nil => exact run_nil
  | cons b t =>
    have hr := h (decodeRune (b :: t)).1 (by rw [runes_of_ne_nil (by simp)]; rfl)
    unfold ansiEscapeRE
    rw [Regex.run, Regex.run]
    rw [if_neg (by simp [ansiLead, hr])]
    rfl

theorem cnt_no_lead {s : GoString} (h : ∀ r ∈ runes s, r ≠ 0x1B ∧ r ≠ 0x9B) : cnt s = 0 := by
  induction hn : s.length using Nat.strongRecOn generalizing s with
  | _ n ih =>
    by_cases hs : s = []
    · subst hs; simp
    · have hrun : ansiEscapeRE.run s = [] := run_no_lead (fun r hr => h r (List.mem_of_mem_head? hr))
      have hsz := decodeRune_size s hs
      rw [cnt_none hrun hs]
      refine ih _ (by rw [← hn, List.length_drop]; omega) (fun r hr => h r ?_) rfl
      rw [runes_of_ne_nil hs]
      exact List.mem_cons_of_mem _ hr

/-- Text without introducer in front of anything whose decoding it does not disturb. -/
theorem cnt_append_no_lead {a b : GoString} (h : ∀ r ∈ runes a, r ≠ 0x1B ∧ r ≠ 0x9B)
    (hb : startsClean b = true) : cnt (a ++ b) = cnt b := by
  induction hn : a.length using Nat.strongRecOn generalizing a with
  | _ n ih =>
    by_cases ha : a = []
    · subst ha; simp
    · have hne : a ++ b ≠ [] := by simp [ha]
      have hdec := decodeRune_append a b ha hb
      have hsz := decodeRune_size a ha
      have hrun : ansiEscapeRE.run (a ++ b) = [] := run_no_lead (fun r hr => by
        rw [runes_append a b hb, runes_of_ne_nil ha] at hr
        apply h r
        rw [runes_of_ne_nil ha]
        simp at hr
        simp [hr])
      rw [cnt_none hrun hne, hdec, List.drop_append_of_le_length hsz.2]
      refine ih _ (by rw [← hn, List.length_drop]; omega) (fun r hr => h r ?_) rfl
      rw [runes_of_ne_nil ha]
      exact List.mem_cons_of_mem _ hr

theorem flatMap_congr' {α β : Type} {l : List α} {f g : α → List β} (h : ∀ x ∈ l, f x = g x) :
    l.flatMap f = l.flatMap g := by
  rw [List.flatMap_def, List.flatMap_def, List.map_congr_left h]

/-! ## A rune no class accepts stops the matcher -/

/-- No class of the expression accepts `x`. -/
def Regex.Avoids (x : Nat) : Regex → Prop
  | .cls p => p x = false
  | .cat a b => a.Avoids x ∧ b.Avoids x
  | .opt a => a.Avoids x
  | .star a => a.Avoids x

theorem starRun_append (f : GoString → List GoString) (b : GoString)
    (hf : ∀ s, f (s ++ b) = (f s).map (· ++ b)) (s : GoString) :
    starRun f (s ++ b) = (starRun f s).map (· ++ b) := by
  induction hn : s.length using Nat.strongRecOn generalizing s with
  | _ n ih =>
    rw [starRun, starRun, hf, List.map_append, List.flatMap_map, List.map_flatMap]
    congr 1
    refine flatMap_congr' (fun r hr => ?_)
    by_cases hlt : r.length < s.length
    · rw [dif_pos (by simp; omega), dif_pos hlt, ih _ (by omega) r rfl]
    · rw [dif_neg (by simp; omega), dif_neg hlt]; rfl

theorem Regex.run_append (re : Regex) (b0 : UInt8) (bt : GoString) (hb : b0.toNat < 0x80)
    (h : re.Avoids b0.toNat) (s : GoString) :
    re.run (s ++ b0 :: bt) = (re.run s).map (· ++ b0 :: bt) := by
  induction re generalizing s with
  | cls p =>
    cases s with
    | nil =>
      simp only [List.nil_append]
      rw [Regex.run, Regex.run]
      rw [decodeRune_ascii b0 bt hb]
      have : p b0.toNat = false := h
      simp [this]
    | cons c t =>
      rw [Regex.run, List.cons_append, Regex.run]
      have hdec := decodeRune_append (c :: t) (b0 :: bt) (by simp) (startsClean_ascii_cons b0 bt hb)
      have hsz := decodeRune_size (c :: t) (by simp)
      rw [List.cons_append] at hdec
      rw [hdec]
      split
      · rw [List.map_cons, List.map_nil, ← List.cons_append, List.drop_append_of_le_length hsz.2]
      · rfl
  | cat a c iha ihc =>
    rw [Regex.run, Regex.run, iha h.1, List.flatMap_map, List.map_flatMap]
    exact flatMap_congr' (fun r _ => ihc h.2 r)
  | opt a iha =>
    rw [Regex.run, Regex.run, iha h, List.map_append]; rfl
  | star a iha =>
    rw [Regex.run, Regex.run]
    exact starRun_append _ _ (iha h) s

/-- A character that ends any escape sequence. -/
def stops (r : Nat) : Bool := !(ansiLead r || ansiPrefix r || isDigit r || isSemi r || ansiFinal r)

theorem avoids_of_stops {r : Nat} (h : stops r = true) : ansiEscapeRE.Avoids r := by
  simp only [stops, Bool.not_eq_true', Bool.or_eq_false_iff] at h
  obtain ⟨⟨⟨⟨h1, h2⟩, h3⟩, h4⟩, h5⟩ := h
  simp [ansiEscapeRE, ansiParams, Regex.upToSucc, Regex.Avoids, h1, h2, h3, h4, h5]

/-- Text from a stopping character on is counted on its own. -/
theorem cnt_append_stop (s : GoString) (b0 : UInt8) (bt : GoString) (hb : b0.toNat < 0x80)
    (hst : stops b0.toNat = true) : cnt (s ++ b0 :: bt) = cnt s + cnt (b0 :: bt) := by
  induction hn : s.length using Nat.strongRecOn generalizing s with
  | _ n ih =>
    by_cases hs : s = []
    · subst hs; simp
    have hrun := Regex.run_append ansiEscapeRE b0 bt hb (avoids_of_stops hst) s
    have hsz := decodeRune_size s hs
    cases hm : ansiEscapeRE.run s with
    | nil =>
      rw [hm] at hrun
      rw [cnt_none hrun (by simp), cnt_none hm hs,
        decodeRune_append s _ hs (startsClean_ascii_cons b0 bt hb), List.drop_append_of_le_length hsz.2]
      exact ih _ (by rw [← hn, List.length_drop]; omega) _ rfl
    | cons rest tl =>
      rw [hm] at hrun
      have hlt := ansiEscapeRE_run_lt s rest (by rw [hm]; simp)
      rw [cnt_match hrun, cnt_match hm, ih _ (by omega) rest rfl]
      simp only [List.length_append]
      omega

theorem cnt_spaces (n : Nat) : cnt (spaces n) = 0 := by
  apply cnt_no_lead
  intro r hr
  have : printableASCII (spaces n) := by
    intro b hb; rw [spaces, List.mem_replicate] at hb; rw [hb.2]; decide
  rw [runes_printable this] at hr
  obtain ⟨b, hb, rfl⟩ := List.mem_map.mp hr
  have := this b hb
  omega

theorem cnt_append_spaces (s : GoString) (n : Nat) : cnt (s ++ spaces n) = cnt s := by
  cases n with
  | zero => simp [spaces]
  | succ n =>
    have := cnt_spaces (n + 1)
    rw [spaces, List.replicate_succ] at *
    rw [cnt_append_stop s 0x20 _ (by decide) (by decide), this, Nat.add_zero]

theorem printable_spaces (n : Nat) : printableASCII (spaces n) := by
  intro b hb; rw [spaces, List.mem_replicate] at hb; rw [hb.2]; decide

theorem cnt_spaces_append (s : GoString) (n : Nat) : cnt (spaces n ++ s) = cnt s := by
  induction n with
  | zero => simp [spaces]
  | succ n ih =>
    have e : spaces (n + 1) ++ s = 0x20 :: (spaces n ++ s) := by rw [spaces, List.replicate_succ]; rfl
    have hdec := decodeRune_ascii 0x20 (spaces n ++ s) (by decide)
    rw [e, cnt_none (run_no_lead ?_) (by simp), hdec]
    · simpa using ih
    · intro r hr
      rw [runes_ascii_cons _ _ (by decide)] at hr
      simp at hr
      subst hr; decide

end GoTable
