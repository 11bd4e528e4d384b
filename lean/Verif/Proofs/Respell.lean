import Verif.Spec.Respell
import Verif.Proofs.StringWidth
import Verif.Proofs.PlainText
/-!
# Proofs: composed and decomposed spelling

The machine that finds boundaries cannot tell a character from its decomposition.
-/

namespace GoTable
open Spec

/-- The machine runs over classes without meeting a boundary: the state it reaches. -/
def quiet (st : Nat) : List Nat → Option Nat
  | [] => some st
  | p :: ps => if (transitionProp st p).boundary then none else quiet (transitionProp st p).newState ps

/-- States that make no difference: equal ones, and without joiners (`z = false`), where the state after a joiner cannot
occur, those after a pictograph and after any character. -/
def near (z : Bool) (a b : Nat) : Bool :=
  if z then a == b
  else (a == b && a != grExtendedPictographicZWJ) ||
    ((a == grAny || a == grExtendedPictographic) && (b == grAny || b == grExtendedPictographic))

/-- From near states, a class and a list of classes lead to near states, with a boundary before both or before neither,
and with none inside the list. -/
def simB (z : Bool) (p : Nat) : List Nat → Bool
  | [] => false
  | q :: qs =>
    ((List.range 11).all fun a => (List.range 11).all fun b => !near z a b ||
      ((transitionProp a p).boundary == (transitionProp b q).boundary &&
        match quiet (transitionProp b q).newState qs with
        | some e => near z (transitionProp a p).newState e
        | none => false)) &&
    match quiet (transitionProp (-1) q).newState qs with
    | some e => near z (transitionProp (-1) p).newState e
    | none => false

theorem segs_quiet {st e : Nat} (cur ds rs : List Nat) (h : quiet st (ds.map gprop) = some e) :
    segs st cur (ds ++ rs) = segs e (cur ++ ds) rs := by
  induction ds generalizing st cur with
  | nil => simp [quiet] at h; subst h; simp
  | cons d ds ih =>
    rw [List.map_cons, quiet] at h
    split at h
    · cases h
    · rename_i hb
      have hb' : ¬ (T st d).boundary = true := hb
      have ih' := ih (cur ++ [d]) h
      rw [List.append_assoc] at ih'
      rw [List.cons_append, segs, if_neg hb']
      exact ih'

/-- What the machine must know about a character and what stands for it. -/
structure Stands (z : Bool) (r : Nat) (d : List Nat) : Prop where
  sim : simB z (gprop r) (d.map gprop) = true

/-- Characters one by one, each with what stands for it. -/
inductive Sub (P : Nat → List Nat → Prop) : List Nat → List Nat → Prop
  | nil : Sub P [] []
  | cons (r : Nat) (d rs rs' : List Nat) (hd : P r d) (h : Sub P rs rs') : Sub P (r :: rs) (d ++ rs')

theorem Sub.append {P : Nat → List Nat → Prop} {a a' b b' : List Nat} (h1 : Sub P a a') (h2 : Sub P b b') :
    Sub P (a ++ b) (a' ++ b') := by
  induction h1 with
  | nil => exact h2
  | cons r d rs rs' hd _ ih => rw [List.cons_append, List.append_assoc]; exact .cons r d _ _ hd ih

theorem Sub.single {P : Nat → List Nat → Prop} {r : Nat} {d : List Nat} (h : P r d) : Sub P [r] d := by
  have := Sub.cons r d [] [] h .nil
  rwa [List.append_nil] at this

/-- Two lists of the same length, their elements related one by one. -/
inductive Both (R : List Nat → List Nat → Prop) : List (List Nat) → List (List Nat) → Prop
  | nil : Both R [] []
  | cons {a b : List Nat} {as bs : List (List Nat)} (h : R a b) (t : Both R as bs) : Both R (a :: as) (b :: bs)

theorem simB_step {z : Bool} {p q : Nat} {qs : List Nat} (h : simB z p (q :: qs) = true) {a b : Nat} (ha : a ≤ 10)
    (hb : b ≤ 10) (hn : near z a b = true) :
    (transitionProp a p).boundary = (transitionProp b q).boundary ∧
    ∃ e, quiet (transitionProp b q).newState qs = some e ∧ near z (transitionProp a p).newState e = true := by
  rw [simB, Bool.and_eq_true] at h
  have h1 := List.all_eq_true.mp (List.all_eq_true.mp h.1 a (List.mem_range.mpr (by omega))) b
    (List.mem_range.mpr (by omega))
  rw [hn, Bool.not_true, Bool.false_or, Bool.and_eq_true, beq_iff_eq] at h1
  refine ⟨h1.1, ?_⟩
  cases hq : quiet (transitionProp b q).newState qs with
  | none => rw [hq] at h1; cases h1.2
  | some e => rw [hq] at h1; exact ⟨e, rfl, h1.2⟩

theorem simB_start {z : Bool} {p q : Nat} {qs : List Nat} (h : simB z p (q :: qs) = true) :
    ∃ e, quiet (transitionProp (-1) q).newState qs = some e ∧ near z (transitionProp (-1) p).newState e = true := by
  rw [simB, Bool.and_eq_true] at h
  cases hq : quiet (transitionProp (-1) q).newState qs with
  | none => rw [hq] at h; cases h.2
  | some e => rw [hq] at h; exact ⟨e, rfl, h.2⟩

theorem quiet_le {st e : Nat} {ps : List Nat} (hs : st ≤ 10) (h : quiet st ps = some e) : e ≤ 10 := by
  induction ps generalizing st with
  | nil => simp [quiet] at h; omega
  | cons p ps ih =>
    rw [quiet] at h
    split at h
    · cases h
    · exact ih (transitionProp_newState_le _ _) h

theorem segs_sub {z : Bool} {P : Nat → List Nat → Prop} (hP : ∀ r d, P r d → Stands z r d) {rs rs' : List Nat}
    (h : Sub P rs rs') : ∀ (a b : Nat) (cur cur' : List Nat), a ≤ 10 → b ≤ 10 → near z a b = true → Sub P cur cur' →
      Both (Sub P) (segs a cur rs) (segs b cur' rs') := by
  induction h with
  | nil => intro a b cur cur' _ _ _ hc; exact .cons hc .nil
  | cons r d rs rs' hd h ih =>
    intro a b cur cur' ha hb hn hc
    have hs := (hP r d hd).sim
    cases d with
    | nil => cases hs
    | cons q qs =>
      obtain ⟨h1, e, h2, h3⟩ := simB_step hs ha hb hn
      have h1' : (T a r).boundary = (T b q).boundary := h1
      rw [List.cons_append, segs, segs, h1']
      have he := quiet_le (transitionProp_newState_le _ _) h2
      have h2' : quiet (T b q).newState (qs.map gprop) = some e := h2
      split
      · rw [segs_quiet _ _ _ h2']
        exact .cons hc (ih _ _ _ _ (T_newState_le _ _) he h3 (.single hd))
      · rw [segs_quiet _ _ _ h2']
        refine ih _ _ _ _ (T_newState_le _ _) he h3 ?_
        rw [List.append_assoc]
        exact hc.append (.single hd)

theorem segments_sub {z : Bool} {P : Nat → List Nat → Prop} (hP : ∀ r d, P r d → Stands z r d) {rs rs' : List Nat}
    (h : Sub P rs rs') : Both (Sub P) (segments rs) (segments rs') := by
  cases h with
  | nil => exact .nil
  | cons r d rs rs' hd h =>
    have hs := (hP r d hd).sim
    cases d with
    | nil => cases hs
    | cons q qs =>
      obtain ⟨e, h2, h3⟩ := simB_start hs
      rw [List.cons_append]
      show Both _ (segs (T (-1) r).newState [r] rs) (segs (T (-1) q).newState [q] (qs ++ rs'))
      have h2' : quiet (T (-1) q).newState (qs.map gprop) = some e := h2
      rw [segs_quiet _ _ _ h2']
      exact segs_sub hP h _ _ _ _ (T_newState_le _ _) (quiet_le (transitionProp_newState_le _ _) h2) h3 (.single hd)

theorem clusterWidth_append (w : Nat → Nat) (a b : List Nat) :
    clusterWidth w (a ++ b) = if 0 < clusterWidth w a then clusterWidth w a else clusterWidth w b := by
  induction a with
  | nil => simp [clusterWidth]
  | cons r a ih =>
    rw [List.cons_append, clusterWidth, clusterWidth, ih]
    by_cases h : 0 < w r <;> simp [h]

theorem clusterWidth_sub {P : Nat → List Nat → Prop} {w : Nat → Nat} (hw : ∀ r d, P r d → clusterWidth w d = w r)
    {u u' : List Nat} (h : Sub P u u') : clusterWidth w u' = clusterWidth w u := by
  induction h with
  | nil => rfl
  | cons r d rs rs' hd _ ih => rw [clusterWidth_append, hw r d hd, ih]; rfl

theorem sw_sub {z : Bool} {P : Nat → List Nat → Prop} {w : Nat → Nat} (hP : ∀ r d, P r d → Stands z r d)
    (hw : ∀ r d, P r d → clusterWidth w d = w r) {rs rs' : List Nat} (h : Sub P rs rs') : sw w rs' = sw w rs := by
  have hf := segments_sub hP h
  unfold sw
  generalize segments rs = x at hf
  generalize segments rs' = y at hf
  induction hf with
  | nil => rfl
  | cons h1 _ ih => rw [List.map_cons, List.map_cons, List.sum_cons, List.sum_cons, ih, clusterWidth_sub hw h1]

/-! ## What stands for a character -/

theorem sim_self (p : Nat) (hp : p = 0 ∨ (2 ≤ p ∧ p ≤ 15)) : simB true p [p] = true ∧ (p ≠ 14 → simB false p [p] = true) := by
  have h : ∀ p ∈ List.range 16, p ≠ 1 → simB true p [p] = true ∧ (p ≠ 14 → simB false p [p] = true) := by
    decide +kernel
  exact h p (List.mem_range.mpr (by omega)) (by omega)

theorem stands_self (z : Bool) (r : Nat) (hz : z = false → r ≠ 0x200D) : Stands z r [r] := by
  have h := sim_self (gprop r) (gprop_range r)
  cases z with
  | true => exact ⟨h.1⟩
  | false =>
    refine ⟨h.2 fun e => hz rfl ?_⟩
    have hc : classOf r = .zwj := (gprop_eq_iff r .zwj).mp e
    obtain ⟨x, hx, h1, h2⟩ := (classOf_code_iff r .zwj 14 (by omega) rfl).mp hc
    have H : ∀ x ∈ graphemeCodePoints.filter (fun e => e.2.2 == 14), x = (0x200D, 0x200D, 14) := by decide +kernel
    have := H x hx
    subst this
    dsimp only at h1 h2
    omega

/-- The classes of the characters of the table and of their decompositions. -/
def kinds : List (Nat × List Nat) :=
  [(0, [0]), (0, [0, 6]), (0, [0, 6, 6]), (0, [0, 6, 6, 6]), (6, [6]), (6, [6, 6]), (8, [8, 6]), (8, [8, 6, 6])]

/-- The classes of the characters of `contextual` and of their decompositions. -/
def kinds' : List (Nat × List Nat) := [(0, [15, 6]), (8, [6, 6]), (8, [6, 6, 6])]

theorem canonical_kinds : ∀ e ∈ canonical, (gprop e.1, e.2.map gprop) ∈ kinds ∨
    ((gprop e.1, e.2.map gprop) ∈ kinds' ∧ e.1 ∈ contextual) := by decide +kernel

theorem kinds_sim : ∀ k ∈ kinds, simB true k.1 k.2 = true ∧ simB false k.1 k.2 = true := by decide +kernel

theorem kinds'_sim : ∀ k ∈ kinds', simB false k.1 k.2 = true := by decide +kernel

theorem hangul_sim (z : Bool) : simB z 12 [9, 10] = true ∧ simB z 13 [9, 10, 11] = true := by
  cases z <;> decide +kernel

end GoTable
