import Verif.Proofs.StringsJoin
import Verif.Proofs.EscapeWidth
import Verif.Spec.Ansi
/-! Control sequences are matched exactly. -/

namespace GoTable
open Spec

/-- The preferred match at the front of `s` leaves `r`. -/
def Regex.Head (re : Regex) (s r : GoString) : Prop := ∃ tl, re.run s = r :: tl

theorem run_cls_ascii (p : Nat → Bool) (b : UInt8) (t : GoString) (hb : b.toNat < 0x80) :
    (Regex.cls p).run (b :: t) = if p b.toNat then [t] else [] := by
  rw [Regex.run, decodeRune_ascii b t hb]; rfl

theorem head_cls (p : Nat → Bool) (b : UInt8) (t : GoString) (hb : b.toNat < 0x80) (h : p b.toNat = true) :
    (Regex.cls p).Head (b :: t) t := ⟨[], by rw [run_cls_ascii p b t hb, if_pos h]⟩

theorem head_cat {a b : Regex} {s m r : GoString} (h1 : a.Head s m) (h2 : b.Head m r) :
    (Regex.cat a b).Head s r := by
  obtain ⟨t1, h1⟩ := h1
  obtain ⟨t2, h2⟩ := h2
  rw [Regex.Head, Regex.run, h1, List.flatMap_cons, h2]
  exact ⟨_, rfl⟩

theorem head_opt {a : Regex} {s r : GoString} (h : a.Head s r) : (Regex.opt a).Head s r := by
  obtain ⟨t, h⟩ := h
  rw [Regex.Head, Regex.run, h]
  exact ⟨_, rfl⟩

theorem head_opt_none {a : Regex} {s : GoString} (h : a.run s = []) : (Regex.opt a).Head s s := by
  rw [Regex.Head, Regex.run, h]
  exact ⟨[], rfl⟩

theorem head_star {a : Regex} {s m r : GoString} (h1 : a.Head s m) (hlt : m.length < s.length)
    (h2 : (Regex.star a).Head m r) : (Regex.star a).Head s r := by
  obtain ⟨t1, h1⟩ := h1
  obtain ⟨t2, h2⟩ := h2
  rw [Regex.run] at h2
  rw [Regex.Head, Regex.run, starRun, h1, List.flatMap_cons, dif_pos hlt, h2]
  exact ⟨_, rfl⟩

theorem head_star_none {a : Regex} {s : GoString} (h : a.run s = []) : (Regex.star a).Head s s := by
  rw [Regex.Head, Regex.run, starRun, h]
  exact ⟨[], rfl⟩

theorem run_cat_none {a b : Regex} {s : GoString} (h : a.run s = []) : (Regex.cat a b).run s = [] := by
  rw [Regex.run, h]; rfl

/-- A run of characters of a class. -/
theorem head_star_cls (p : Nat → Bool) (d : GoString) (c : UInt8) (t : GoString)
    (hd : ∀ b ∈ d, b.toNat < 0x80 ∧ p b.toNat = true) (hc : c.toNat < 0x80) (hpc : p c.toNat = false) :
    (Regex.star (.cls p)).Head (d ++ c :: t) (c :: t) := by
  induction d with
  | nil =>
    apply head_star_none
    rw [List.nil_append, run_cls_ascii p c t hc, hpc]; rfl
  | cons x d ih =>
    have hx := hd x (by simp)
    exact head_star (head_cls p x _ hx.1 hx.2) (by simp) (ih (fun b hb => hd b (List.mem_cons_of_mem _ hb)))

theorem head_upToSucc (p : Nat → Bool) (n : Nat) (d : GoString) (c : UInt8) (t : GoString)
    (hlen : d.length ≤ n + 1) (hd : ∀ b ∈ d, b.toNat < 0x80 ∧ p b.toNat = true) (hc : c.toNat < 0x80)
    (hpc : p c.toNat = false) :
    (Regex.upToSucc (.cls p) n).Head (d ++ c :: t) (c :: t) := by
  have hnone : (Regex.cls p).run (c :: t) = [] := by rw [run_cls_ascii p c t hc, hpc]; rfl
  induction n generalizing d with
  | zero =>
    rw [Regex.upToSucc]
    match d, hlen, hd with
    | [], _, _ => exact head_opt_none hnone
    | [x], _, hd =>
      have hx := hd x (by simp)
      exact head_opt (head_cls p x _ hx.1 hx.2)
  | succ n ih =>
    rw [Regex.upToSucc]
    cases d with
    | nil => exact head_opt_none (run_cat_none hnone)
    | cons x d =>
      have hx := hd x (by simp)
      exact head_opt (head_cat (head_cls p x _ hx.1 hx.2)
        (ih d (by simp at hlen; omega) (fun b hb => hd b (List.mem_cons_of_mem _ hb))))

theorem isDigit_param {p : GoString} (h : Param p) : ∀ b ∈ p, b.toNat < 0x80 ∧ isDigit b.toNat = true := by
  intro b hb
  have := h.2 b hb
  refine ⟨by omega, ?_⟩
  simp [isDigit]; omega

/-- `(?:;[0-9]{0,4})*` on further parameters. -/
theorem head_more (qs : List GoString) (hq : ∀ q ∈ qs, Param q) (c : UInt8) (t : GoString)
    (hc : c.toNat < 0x80) (hcd : isDigit c.toNat = false) (hcs : isSemi c.toNat = false) :
    (Regex.star (.cat (.cls isSemi) (.upToSucc (.cls isDigit) 3))).Head
      ((qs.flatMap fun q => lit ";" ++ q) ++ c :: t) (c :: t) := by
  induction qs with
  | nil =>
    apply head_star_none
    apply run_cat_none
    rw [List.flatMap_nil, List.nil_append, run_cls_ascii _ c t hc, hcs]; rfl
  | cons q qs ih =>
    have hlit : lit ";" = [0x3B] := by decide +kernel
    have ih := ih (fun x hx => hq x (List.mem_cons_of_mem _ hx))
    have hp := hq q (by simp)
    rw [List.flatMap_cons, hlit]
    rw [hlit] at ih
    have e : [0x3B] ++ q ++ List.flatMap (fun q => [0x3B] ++ q) qs ++ c :: t =
      0x3B :: (q ++ ((List.flatMap (fun q => [0x3B] ++ q) qs) ++ c :: t)) := by simp
    rw [e]
    have hrest : ∃ c' t', (List.flatMap (fun q => [0x3B] ++ q) qs) ++ c :: t = c' :: t' ∧ c'.toNat < 0x80 ∧
        isDigit c'.toNat = false := by
      cases qs with
      | nil => exact ⟨c, t, rfl, hc, hcd⟩
      | cons q' qs' => exact ⟨0x3B, _, rfl, by decide, by decide⟩
    obtain ⟨c', t', he, hc', hcd'⟩ := hrest
    rw [he] at ih ⊢
    refine head_star (head_cat (head_cls isSemi 0x3B _ (by decide) (by decide))
      (head_upToSucc isDigit 3 q c' t' hp.1 (isDigit_param hp) hc' hcd')) ?_ ih
    simp; omega

theorem join_cons (sep p : GoString) (qs : List GoString) :
    join sep (p :: qs) = p ++ qs.flatMap fun q => sep ++ q := by
  induction qs generalizing p with
  | nil => simp [join]
  | cons q qs ih => rw [join, ih, List.flatMap_cons]; simp

/-- Leading empty parameters are read with the bracket, the rest as parameters. -/
theorem join_params (ps : List GoString) (hp : ∀ p ∈ ps, Param p) :
    ∃ (k : Nat) (body : GoString), join (lit ";") ps = List.replicate k 0x3B ++ body ∧
      (body = [] ∨ ∃ (p : GoString) (qs : List GoString), p ≠ [] ∧ Param p ∧ (∀ q ∈ qs, Param q) ∧
        body = p ++ qs.flatMap fun q => lit ";" ++ q) := by
  induction ps with
  | nil => exact ⟨0, [], rfl, Or.inl rfl⟩
  | cons p ps ih =>
    by_cases h0 : p = []
    · subst h0
      cases ps with
      | nil => exact ⟨0, [], rfl, Or.inl rfl⟩
      | cons q qs =>
        obtain ⟨k, body, h1, h2⟩ := ih (fun x hx => hp x (List.mem_cons_of_mem _ hx))
        refine ⟨k + 1, body, ?_, h2⟩
        have hlit : lit ";" = [0x3B] := by decide +kernel
        rw [join, h1, hlit, List.replicate_succ]
        simp
    · refine ⟨0, join (lit ";") (p :: ps), rfl, Or.inr ⟨p, ps, h0, hp p (by simp),
        fun q hq => hp q (List.mem_cons_of_mem _ hq), join_cons _ _ _⟩⟩

/-- A control sequence whose final byte is a letter the expression accepts. -/
def FinalByte (fin : UInt8) : Prop :=
  fin.toNat < 0x80 ∧ ansiFinal fin.toNat = true ∧ isDigit fin.toNat = false ∧ isSemi fin.toNat = false ∧
  ansiPrefix fin.toNat = false

theorem run_csi (ps : List GoString) (hp : ∀ p ∈ ps, Param p) (fin : UInt8) (hf : FinalByte fin)
    (t : GoString) : ansiEscapeRE.Head (csi ps fin ++ t) t := by
  obtain ⟨hf1, hf2, hf3, hf4, hf5⟩ := hf
  have hlit : lit "\x1b[" = [0x1B, 0x5B] := by decide +kernel
  obtain ⟨k, body, hj, hbody⟩ := join_params ps hp
  have e : csi ps fin ++ t = 0x1B :: ((0x5B :: List.replicate k 0x3B) ++ (body ++ fin :: t)) := by
    rw [csi, ← join_eq, hlit, hj]; simp
  rw [e]
  refine head_cat (head_cls ansiLead 0x1B _ (by decide) (by decide)) ?_
  have hpre : ∀ b ∈ (0x5B :: List.replicate k 0x3B : GoString), b.toNat < 0x80 ∧ ansiPrefix b.toNat = true := by
    intro b hb
    rcases List.mem_cons.mp hb with rfl | hb
    · decide
    · rw [(List.mem_replicate.mp hb).2]; decide
  rcases hbody with rfl | ⟨p, qs, hp0, hpp, hqs, rfl⟩
  · rw [List.nil_append]
    refine head_cat (head_star_cls ansiPrefix _ fin t hpre hf1 hf5) ?_
    refine head_cat (head_opt_none ?_) (head_cls ansiFinal fin t hf1 hf2)
    unfold ansiParams
    apply run_cat_none
    apply run_cat_none
    rw [run_cls_ascii _ fin t hf1, hf3]; rfl
  · obtain ⟨d, p', rfl⟩ := List.exists_cons_of_ne_nil hp0
    have hd := isDigit_param hpp d (by simp)
    have hd2 := hpp.2 d (by simp)
    have hdp : ansiPrefix d.toNat = false := by
      simp only [ansiPrefix, Bool.or_eq_false_iff, beq_eq_false_iff_ne]; omega
    rw [show (d :: p' ++ qs.flatMap fun q => lit ";" ++ q) ++ fin :: t =
      d :: (p' ++ ((qs.flatMap fun q => lit ";" ++ q) ++ fin :: t)) by simp]
    refine head_cat (head_star_cls ansiPrefix _ d _ hpre hd.1 hdp) ?_
    refine head_cat (m := fin :: t) (head_opt ?_) (head_cls ansiFinal fin t hf1 hf2)
    have hlit' : lit ";" = [0x3B] := by decide +kernel
    have hrest : ∃ c' t', (List.flatMap (fun q => lit ";" ++ q) qs) ++ fin :: t = c' :: t' ∧ c'.toNat < 0x80 ∧
        isDigit c'.toNat = false := by
      cases qs with
      | nil => exact ⟨fin, t, rfl, hf1, hf3⟩
      | cons q' qs' => exact ⟨0x3B, _, by rw [List.flatMap_cons, hlit']; rfl, by decide, by decide⟩
    have hmore := head_more qs hqs fin t hf1 hf3 hf4
    obtain ⟨c', t', he, hc', hcd'⟩ := hrest
    rw [he] at hmore ⊢
    unfold ansiParams
    refine head_cat (head_cat (head_cls isDigit d _ hd.1 hd.2) ?_) hmore
    exact head_upToSucc isDigit 2 p' c' t' (by have := hpp.1; simp at this; omega)
      (fun b hb => isDigit_param hpp b (List.mem_cons_of_mem _ hb)) hc' hcd'

theorem cnt_csi (ps : List GoString) (hp : ∀ p ∈ ps, Param p) (fin : UInt8) (hf : FinalByte fin)
    (t : GoString) : cnt (csi ps fin ++ t) = (csi ps fin).length - 1 + cnt t := by
  obtain ⟨tl, h⟩ := run_csi ps hp fin hf t
  rw [cnt_match h]
  simp only [List.length_append]
  omega

/-- A control sequence is ESC followed by printable ASCII. -/
theorem csi_eq (ps : List GoString) (hp : ∀ p ∈ ps, Param p) (fin : UInt8)
    (hf : 0x20 ≤ fin.toNat ∧ fin.toNat ≤ 0x7E) :
    ∃ a, csi ps fin = 0x1B :: (a ++ [fin]) ∧ printableASCII (a ++ [fin]) := by
  have hlit : lit "\x1b[" = [0x1B, 0x5B] := by decide +kernel
  have hlit' : lit ";" = [0x3B] := by decide +kernel
  refine ⟨0x5B :: join (lit ";") ps, by rw [csi, ← join_eq, hlit]; simp, ?_⟩
  have hj : printableASCII (join (lit ";") ps) := by
    cases ps with
    | nil => exact printable_nil
    | cons p qs =>
      rw [join_cons]
      intro b hb
      rcases List.mem_append.mp hb with h | h
      · have := (hp p (by simp)).2 b h; omega
      · obtain ⟨q, hq, h⟩ := List.mem_flatMap.mp h
        rw [hlit'] at h
        rcases List.mem_append.mp h with h | h
        · simp at h; subst h; decide
        · have := (hp q (List.mem_cons_of_mem _ hq)).2 b h; omega
  intro b hb
  rw [List.cons_append] at hb
  rcases List.mem_cons.mp hb with rfl | hb
  · decide
  · rcases List.mem_append.mp hb with h | h
    · exact hj b h
    · simp at h; subst h; exact hf

/-- Width of `u ++ csi ++ t` when `t` does not start with an extending character. -/
theorem stringWidth_csi (f : Flags) (u t : GoString) (ps : List GoString) (hp : ∀ p ∈ ps, Param p)
    (fin : UInt8) (hf : 0x20 ≤ fin.toNat ∧ fin.toNat ≤ 0x7E) (ht : ¬ StartsExtending t) :
    stringWidth f (u ++ (csi ps fin ++ t)) =
      stringWidth f u + ((csi ps fin).length - 1) + stringWidth f t := by
  obtain ⟨a, ha, hpa⟩ := csi_eq ps hp fin hf
  have hclean : startsClean (csi ps fin ++ t) = true := by
    rw [ha]; exact startsClean_ascii_cons _ _ (by decide)
  rw [stringWidth_eq_sw, stringWidth_eq_sw f u, stringWidth_eq_sw f t, runes_append _ _ hclean, ha,
    List.cons_append, runes_ascii_cons _ _ (by decide), runes_printable_append hpa]
  have e : runes u ++ (0x1B : UInt8).toNat :: (List.map UInt8.toNat (a ++ [fin]) ++ runes t) =
    (runes u ++ ((0x1B : UInt8).toNat :: List.map UInt8.toNat (a ++ [fin]))) ++ runes t := by simp
  have hfc := classOf_ascii fin.toNat hf.1 hf.2
  rw [e, sw_append _ _ (runes t)]
  · rw [sw_append _ (runes u)]
    · have e2 : (0x1B : UInt8).toNat :: List.map UInt8.toNat (a ++ [fin]) =
        [(0x1B : UInt8).toNat] ++ List.map UInt8.toNat (a ++ [fin]) := rfl
      rw [e2, sw_append_ascii f _ _ (by
          intro r hr
          obtain ⟨x, hx, rfl⟩ := List.mem_map.mp hr
          exact hpa x hx) (by
          simp only [List.map_cons, List.map_nil, List.getLast?_singleton]
          rw [show classOf (0x1B : UInt8).toNat = .control from classOf_esc]; simp),
        sw_singleton, show runeWidth f ((0x1B : UInt8).toNat : Nat) = 0 from runeWidth_control f _ (by decide)]
      simp
    · rintro _ r rs he
      obtain ⟨rfl, rfl⟩ := List.cons.inj he
      rw [show classOf (0x1B : UInt8).toNat = .control from classOf_esc]
      exact breaks_control _
  · rintro _ r rs he
    have hr : ¬ (classOf r = .extend ∨ classOf r = .zwj ∨ classOf r = .spacingMark) :=
      fun h => ht ⟨r, by rw [he]; rfl, h⟩
    refine breaks_after_other _ _ ?_ (fun h => hr (Or.inl h)) (fun h => hr (Or.inr (Or.inl h)))
      (fun h => hr (Or.inr (Or.inr h)))
    simp only [List.map_append, List.map_cons, List.map_nil, hfc, ← List.cons_append, ← List.append_assoc]
    rw [List.getLast?_concat]

end GoTable
