import Verif.Proofs.Segment
import Verif.Spec.UAX29
import Mathlib.Tactic.Tauto
/-! The grapheme state machine implements the declarative rules. -/

namespace GoTable
open Spec

def gcbCode : GCB → Nat
  | .other => 0 | .prepend => 2 | .cr => 3 | .lf => 4 | .control => 5 | .extend => 6 | .ri => 7
  | .spacingMark => 8 | .l => 9 | .v => 10 | .t => 11 | .lv => 12 | .lvt => 13
  | .zwj => 14 | .extPict => 15

theorem gprop_eq_code (r : Nat) : gprop r = gcbCode (classOf r) := by
  unfold classOf
  split
  · rename_i e he
    have hm := List.mem_of_find?_eq_some he
    have hp := List.find?_some he
    simp only [Bool.and_eq_true, decide_eq_true_eq] at hp
    rw [gprop, property_eq_of_mem _ graphemeCodePoints_sorted e hm r hp.1 hp.2]
    have h : (graphemeCodePoints.all fun e => decide (gcbCode (GCB.ofCode e.2.2) = e.2.2)) = true := by
      decide +kernel
    have := List.all_eq_true.mp h e hm
    simpa using (of_decide_eq_true this).symm
  · rename_i hn
    rw [gprop, property_eq_zero_of_not_mem _ graphemeCodePoints_sorted]
    · rfl
    · intro e he
      have := List.find?_eq_none.mp hn e he
      simpa using this

/-! Left contexts, last class first. -/

def epExt : List GCB → Bool
  | .extPict :: _ => true
  | .extend :: t => epExt t
  | _ => false

def riOdd : List GCB → Bool
  | .ri :: t => !riOdd t
  | _ => false

def epZwj : List GCB → Bool
  | .zwj :: t => epExt t
  | _ => false

/-- Parser state after a left context. -/
def stF (h : GCB) (ep ri : Bool) : Nat :=
  match h with
  | .cr => 1 | .lf => 2 | .control => 2 | .l => 3 | .lv => 4 | .v => 4 | .lvt => 5 | .t => 5
  | .prepend => 6 | .extPict => 7
  | .extend => if ep then 7 else 0
  | .zwj => if ep then 8 else 0
  | .ri => if ri then 10 else 9
  | .other => 0 | .spacingMark => 0

def stOf : List GCB → Nat
  | [] => 0
  | h :: t => stF h (epExt t) (riOdd t)

def epF (h : GCB) (ep : Bool) : Bool :=
  match h with | .extPict => true | .extend => ep | _ => false
def riF (h : GCB) (ri : Bool) : Bool :=
  match h with | .ri => !ri | _ => false
def zwF (h : GCB) (ep : Bool) : Bool :=
  match h with | .zwj => ep | _ => false

theorem epExt_cons (h : GCB) (t : List GCB) : epExt (h :: t) = epF h (epExt t) := by cases h <;> rfl
theorem riOdd_cons (h : GCB) (t : List GCB) : riOdd (h :: t) = riF h (riOdd t) := by cases h <;> rfl
theorem epZwj_cons (h : GCB) (t : List GCB) : epZwj (h :: t) = zwF h (epExt t) := by cases h <;> rfl

def allGCB : List GCB := [.other, .prepend, .cr, .lf, .control, .extend, .ri, .spacingMark,
  .l, .v, .t, .lv, .lvt, .zwj, .extPict]
theorem mem_allGCB (c : GCB) : c ∈ allGCB := by cases c <;> simp [allGCB]

theorem newState_finite (h c : GCB) (ep ri : Bool) :
    (transitionProp (stF h ep ri : Nat) (gcbCode c)).newState = stF c (epF h ep) (riF h ri) := by
  have H : ∀ h ∈ allGCB, ∀ c ∈ allGCB, ∀ ep ∈ [true, false], ∀ ri ∈ [true, false],
      (transitionProp (stF h ep ri : Nat) (gcbCode c)).newState = stF c (epF h ep) (riF h ri) := by
    decide +kernel
  exact H h (mem_allGCB h) c (mem_allGCB c) ep (by cases ep <;> simp) ri (by cases ri <;> simp)

theorem newState_start (c : GCB) :
    (transitionProp (-1) (gcbCode c)).newState = stF c false false := by
  cases c <;> decide +kernel

/-- The rules on a summarised left context. -/
def breaksF (h c : GCB) (zw ri : Bool) : Bool :=
  decide (¬ (h = .cr ∧ c = .lf) ∧
    ((h = .control ∨ h = .cr ∨ h = .lf) ∨ (c = .control ∨ c = .cr ∨ c = .lf) ∨
      ¬ ((h = .l ∧ (c = .l ∨ c = .v ∨ c = .lv ∨ c = .lvt)) ∨
        ((h = .lv ∨ h = .v) ∧ (c = .v ∨ c = .t)) ∨
        ((h = .lvt ∨ h = .t) ∧ c = .t) ∨
        (c = .extend ∨ c = .zwj) ∨ c = .spacingMark ∨ h = .prepend ∨
        (zw = true ∧ c = .extPict) ∨ (ri = true ∧ c = .ri))))

theorem boundary_finite (h c : GCB) (ep ri : Bool) :
    (transitionProp (stF h ep ri : Nat) (gcbCode c)).boundary = breaksF h c (zwF h ep) (riF h ri) := by
  have H : ∀ h ∈ allGCB, ∀ c ∈ allGCB, ∀ ep ∈ [true, false], ∀ ri ∈ [true, false],
      (transitionProp (stF h ep ri : Nat) (gcbCode c)).boundary
        = breaksF h c (zwF h ep) (riF h ri) := by
    decide +kernel
  exact H h (mem_allGCB h) c (mem_allGCB c) ep (by cases ep <;> simp) ri (by cases ri <;> simp)

theorem epExt_iff (l : List GCB) :
    epExt l = true ↔ ∃ p k, l.reverse = p ++ [.extPict] ++ List.replicate k .extend := by
  induction l with
  | nil =>
    simp only [epExt, Bool.false_eq_true, List.reverse_nil, false_iff]
    rintro ⟨p, k, h⟩
    have := congrArg List.length h
    simp at this
  | cons a t ih =>
    by_cases ha : a = .extPict
    · subst ha
      simp only [epExt, true_iff]
      exact ⟨t.reverse, 0, by simp⟩
    by_cases hb : a = .extend
    · subst hb
      rw [show epExt (.extend :: t) = epExt t from rfl, ih]
      constructor
      · rintro ⟨p, k, h⟩
        refine ⟨p, k + 1, ?_⟩
        rw [List.reverse_cons, h, List.replicate_succ']; simp
      · rintro ⟨p, k, h⟩
        cases k with
        | zero =>
          rw [List.reverse_cons] at h
          simp at h
        | succ k =>
          refine ⟨p, k, ?_⟩
          rw [List.reverse_cons, List.replicate_succ', ← List.append_assoc] at h
          exact (List.append_inj' h rfl).1
    · have h0 : epExt (a :: t) = false := by cases a <;> simp_all [epExt]
      simp only [h0, Bool.false_eq_true, false_iff]
      rintro ⟨p, k, h⟩
      rw [List.reverse_cons] at h
      cases k with
      | zero => simp at h; exact ha h.2
      | succ k =>
        rw [List.replicate_succ', ← List.append_assoc] at h
        have := (List.append_inj' h rfl).2
        simp at this; exact hb this

theorem epZwj_iff (l : List GCB) :
    epZwj l = true ↔ ∃ p k, l.reverse = p ++ [.extPict] ++ List.replicate k .extend ++ [.zwj] := by
  cases l with
  | nil =>
    simp [epZwj]
  | cons a t =>
    by_cases ha : a = .zwj
    · subst ha
      rw [show epZwj (.zwj :: t) = epExt t from rfl, epExt_iff]
      constructor
      · rintro ⟨p, k, h⟩; exact ⟨p, k, by rw [List.reverse_cons, h]⟩
      · rintro ⟨p, k, h⟩
        rw [List.reverse_cons] at h
        exact ⟨p, k, (List.append_inj' h rfl).1⟩
    · have h0 : epZwj (a :: t) = false := by cases a <;> simp_all [epZwj]
      simp only [h0, Bool.false_eq_true, false_iff]
      rintro ⟨p, k, h⟩
      rw [List.reverse_cons] at h
      have := (List.append_inj' h rfl).2
      simp at this; exact ha this

theorem riOdd_iff_aux (l : List GCB) :
    (riOdd l = true → ∃ p k, l.reverse = p ++ List.replicate (2 * k + 1) .ri ∧
      p.getLast? ≠ some GCB.ri) ∧
    (riOdd l = false → ∃ p k, l.reverse = p ++ List.replicate (2 * k) .ri ∧
      p.getLast? ≠ some GCB.ri) := by
  induction l with
  | nil => exact ⟨by simp [riOdd], fun _ => ⟨[], 0, by simp⟩⟩
  | cons a t ih =>
    by_cases ha : a = .ri
    · subst ha
      have h0 : riOdd (.ri :: t) = !riOdd t := rfl
      constructor
      · intro h
        obtain ⟨p, k, h1, h2⟩ := ih.2 (by simpa [h0] using h)
        exact ⟨p, k, by rw [List.reverse_cons, h1, List.replicate_succ', List.append_assoc], h2⟩
      · intro h
        obtain ⟨p, k, h1, h2⟩ := ih.1 (by simpa [h0] using h)
        refine ⟨p, k + 1, ?_, h2⟩
        rw [List.reverse_cons, h1, show 2 * (k + 1) = (2 * k + 1) + 1 by omega,
          List.replicate_succ' (n := 2 * k + 1), List.append_assoc]
    · have h0 : riOdd (a :: t) = false := by cases a <;> simp_all [riOdd]
      refine ⟨by simp [h0], fun _ => ⟨(a :: t).reverse, 0, by simp, ?_⟩⟩
      simp [ha]

theorem replicate_tail_unique {p q : List GCB} {m n : Nat}
    (h : p ++ List.replicate m GCB.ri = q ++ List.replicate n GCB.ri)
    (hp : p.getLast? ≠ some GCB.ri) (hq : q.getLast? ≠ some GCB.ri) : m = n := by
  induction m generalizing n with
  | zero =>
    cases n with
    | zero => rfl
    | succ n =>
      exfalso
      rw [List.replicate_succ', ← List.append_assoc] at h
      simp at h
      rw [h] at hp
      apply hp
      rw [← List.append_assoc]; simp
  | succ m ih =>
    cases n with
    | zero =>
      exfalso
      rw [List.replicate_succ', ← List.append_assoc] at h
      simp at h
      rw [← h] at hq
      apply hq
      rw [← List.append_assoc]; simp
    | succ n =>
      rw [List.replicate_succ', List.replicate_succ', ← List.append_assoc, ← List.append_assoc] at h
      rw [ih (List.append_inj' h rfl).1]

theorem riOdd_iff (l : List GCB) :
    riOdd l = true ↔ ∃ p k, l.reverse = p ++ List.replicate (2 * k + 1) .ri ∧
      p.getLast? ≠ some GCB.ri := by
  constructor
  · exact (riOdd_iff_aux l).1
  · rintro ⟨p, k, h1, h2⟩
    by_contra hc
    obtain ⟨q, j, h3, h4⟩ := (riOdd_iff_aux l).2 (by simpa using hc)
    have := replicate_tail_unique (h1.symm.trans h3) h2 h4
    omega

theorem breaksF_iff (h : GCB) (t : List GCB) (c : GCB) :
    breaksF h c (epZwj (h :: t)) (riOdd (h :: t)) = true ↔ Breaks (h :: t).reverse c := by
  have hz := epZwj_iff (h :: t)
  have hr := riOdd_iff (h :: t)
  have hl : (h :: t).reverse.getLast? = some h := by simp
  unfold Breaks GB3 GB4 GB5 GB6 GB7 GB8 GB9 GB9a GB9b GB11 GB12_13
  rw [← hz, ← hr, hl]
  generalize epZwj (h :: t) = z
  generalize riOdd (h :: t) = o
  simp only [breaksF, Option.some.injEq, decide_eq_true_eq]

/-- Parser state after some runes. -/
def foldSt (st : Nat) (rs : List Nat) : Nat := rs.foldl (fun st r => (T st r).newState) st

theorem T_stOf (h : GCB) (t : List GCB) (r : Nat) :
    (T (stOf (h :: t) : Nat) r).newState = stOf (classOf r :: h :: t) ∧
    ((T (stOf (h :: t) : Nat) r).boundary = true ↔ Breaks (h :: t).reverse (classOf r)) := by
  unfold T transitionGraphemeState
  rw [show property graphemeCodePoints r = gcbCode (classOf r) from gprop_eq_code r]
  constructor
  · rw [stOf, newState_finite, stOf, epExt_cons, riOdd_cons]
  · rw [stOf, boundary_finite, ← epZwj_cons, ← riOdd_cons, breaksF_iff]

theorem T_start (r : Nat) : (T (-1) r).newState = stOf [classOf r] := by
  unfold T transitionGraphemeState
  rw [show property graphemeCodePoints r = gcbCode (classOf r) from gprop_eq_code r, newState_start]
  rfl

theorem foldSt_stOf (rs : List Nat) (h : GCB) (t : List GCB) :
    foldSt (stOf (h :: t)) rs = stOf ((rs.map classOf).reverse ++ h :: t) := by
  induction rs generalizing h t with
  | nil => simp [foldSt]
  | cons r rs ih =>
    rw [show foldSt (stOf (h :: t)) (r :: rs) = foldSt (T (stOf (h :: t) : Nat) r).newState rs from rfl,
      (T_stOf h t r).1, ih]
    simp

/-! ## Positions of boundaries -/

theorem segs_ne_nil (st : Nat) (cur rs : List Nat) : segs st cur rs ≠ [] := by
  rw [segs_scan]; simp

theorem segs_flatten (st : Nat) (cur rs : List Nat) : (segs st cur rs).flatten = cur ++ rs := by
  induction rs generalizing st cur with
  | nil => simp [segs]
  | cons r rs ih => rw [segs]; split <;> simp [ih]

theorem segs_take_len (st : Nat) (cur rs : List Nat) (j : Nat) (hj : 0 < j) :
    cur.length ≤ ((segs st cur rs).take j).flatten.length := by
  obtain ⟨j, rfl⟩ : ∃ i, j = i + 1 := ⟨j - 1, by omega⟩
  rw [segs_scan]; simp

theorem segs_boundary (st : Nat) (cur rs : List Nat) (hc : cur ≠ []) (i : Nat) (hi : i < rs.length) :
    (∃ j, ((segs st cur rs).take j).flatten.length = cur.length + i) ↔
      (T (foldSt st (rs.take i)) (rs[i])).boundary = true := by
  have hcl : 0 < cur.length := List.length_pos_iff.mpr hc
  induction rs generalizing st cur i with
  | nil => simp at hi
  | cons r rs ih =>
    rw [segs]
    by_cases hb : (T st r).boundary = true
    · rw [if_pos hb]
      cases i with
      | zero =>
        simp only [List.take_zero, foldSt, List.foldl_nil, List.getElem_cons_zero, hb, iff_true]
        exact ⟨1, by simp⟩
      | succ i =>
        refine Iff.trans ?_ (ih (T st r).newState [r] (by simp) i (by simpa using hi) (by simp))
        constructor
        · rintro ⟨j, h⟩
          cases j with
          | zero => simp at h
          | succ j => exact ⟨j, by simp at h ⊢; omega⟩
        · rintro ⟨j, h⟩
          exact ⟨j + 1, by simp at h ⊢; omega⟩
    · rw [if_neg hb]
      cases i with
      | zero =>
        simp only [List.take_zero, foldSt, List.foldl_nil, List.getElem_cons_zero, hb]
        rw [iff_false_intro (by simp : ¬ (false = true)), iff_false]
        rintro ⟨j, h⟩
        cases j with
        | zero => simp at h; omega
        | succ j =>
          have := segs_take_len (T st r).newState (cur ++ [r]) rs (j + 1) (by omega)
          simp at this h; omega
      | succ i =>
        refine Iff.trans ?_ (ih (T st r).newState (cur ++ [r]) (by simp) i (by simpa using hi) (by simp))
        simp only [List.length_append, List.length_cons, List.length_nil]
        constructor
        · rintro ⟨j, h⟩; exact ⟨j, by omega⟩
        · rintro ⟨j, h⟩; exact ⟨j, by omega⟩

theorem segments_flatten (rs : List Nat) : (segments rs).flatten = rs := by
  cases rs with
  | nil => rfl
  | cons r rs => simp [segments, segs_flatten]

theorem segs_mem_ne_nil (st : Nat) (cur rs : List Nat) (hc : cur ≠ []) :
    ∀ c ∈ segs st cur rs, c ≠ [] := by
  induction rs generalizing st cur with
  | nil => simpa [segs] using hc
  | cons r rs ih =>
    rw [segs]
    split
    · intro c h
      rcases List.mem_cons.mp h with rfl | h
      · exact hc
      · exact ih _ _ (by simp) c h
    · exact ih _ _ (by simp)

theorem segments_mem_ne_nil (rs : List Nat) : ∀ c ∈ segments rs, c ≠ [] := by
  cases rs with
  | nil => simp [segments]
  | cons r rs => exact segs_mem_ne_nil _ _ _ (by simp)

/-- Boundaries of the segments are those of the rules. -/
theorem segments_boundary (rs : List Nat) (i : Nat) (h0 : 0 < i) (hi : i < rs.length) :
    (∃ j, ((segments rs).take j).flatten = rs.take i) ↔
      Breaks ((rs.take i).map classOf) (classOf rs[i]) := by
  have hlen : (∃ j, ((segments rs).take j).flatten = rs.take i) ↔
      (∃ j, ((segments rs).take j).flatten.length = i) := by
    constructor
    · rintro ⟨j, h⟩; exact ⟨j, by rw [h]; simp; omega⟩
    · rintro ⟨j, h⟩
      refine ⟨j, ?_⟩
      have h1 : ((segments rs).take j).flatten ++ ((segments rs).drop j).flatten = rs := by
        rw [← List.flatten_append, List.take_append_drop, segments_flatten]
      generalize ((segments rs).take j).flatten = a at *
      subst h
      conv_rhs => rw [← h1]
      rw [List.take_left]
  rw [hlen]
  cases rs with
  | nil => simp at hi
  | cons r rs =>
    obtain ⟨i, rfl⟩ : ∃ k, i = k + 1 := ⟨i - 1, by omega⟩
    have := segs_boundary (T (-1) r).newState [r] rs (by simp) i (by simpa using hi)
    rw [segments]
    have h2 : (∃ j, ((segs (T (-1) r).newState [r] rs).take j).flatten.length = i + 1) ↔
        (∃ j, ((segs (T (-1) r).newState [r] rs).take j).flatten.length = [r].length + i) := by
      simp [Nat.add_comm]
    rw [h2, this, T_start, foldSt_stOf]
    have h3 : ∃ h t, (((rs.take i).map classOf).reverse ++ [classOf r]) = h :: t := by
      cases hx : (((rs.take i).map classOf).reverse ++ [classOf r]) with
      | nil => simp at hx
      | cons a b => exact ⟨a, b, rfl⟩
    obtain ⟨h, t, hht⟩ := h3
    rw [hht, (T_stOf h t _).2, ← hht]
    simp

end GoTable
