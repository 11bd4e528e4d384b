import Verif.Spec.Reorder
import Verif.Proofs.RespellTables
/-!
# The order of combining characters
-/

namespace GoTable
open Spec

theorem Spec.Reordered.trans {a b c : List Nat} (h1 : Reordered a b) (h2 : Reordered b c) : Reordered a c := by
  induction h2 with
  | refl => exact h1
  | swap u x y v _ hx hy ih => exact .swap u x y v ih hx hy

theorem Spec.Reordered.extend {a b : List Nat} (h : Reordered a b) (x : List Nat) : Reordered (a ++ x) (b ++ x) := by
  induction h with
  | refl => exact .refl _
  | swap u p q v _ hp hq ih =>
    rw [List.append_assoc, List.cons_append, List.cons_append] at ih ⊢
    exact .swap u p q (v ++ x) ih hp hq

theorem Spec.Reordered.mem {a b : List Nat} (h : Reordered a b) (r : Nat) : r ∈ a ↔ r ∈ b := by
  induction h with
  | refl => exact Iff.rfl
  | swap u p q v _ _ _ ih =>
    rw [ih]
    simp only [List.mem_append, List.mem_cons]
    constructor <;> (rintro (h | h | h | h) <;> simp [h])

theorem Both.refl {R : List Nat → List Nat → Prop} (hR : ∀ a, R a a) (l : List (List Nat)) : Both R l l := by
  induction l with
  | nil => exact .nil
  | cons a l ih => exact .cons (hR a) ih

theorem Both.trans {R : List Nat → List Nat → Prop} (hR : ∀ a b c, R a b → R b c → R a c) {x y z : List (List Nat)}
    (h1 : Both R x y) (h2 : Both R y z) : Both R x z := by
  induction h1 generalizing z with
  | nil => exact h2
  | cons h _ ih =>
    cases h2 with
    | cons h' t' => exact .cons (hR _ _ _ h h') (ih t')

theorem Both.zip {R : List Nat → List Nat → Prop} {x y : List (List Nat)} (h : Both R x y) :
    x.length = y.length ∧ ∀ p ∈ x.zip y, R p.1 p.2 := by
  induction h with
  | nil => exact ⟨rfl, by simp⟩
  | cons h1 _ ih =>
    refine ⟨by simp [ih.1], fun p hp => ?_⟩
    rw [List.zip_cons_cons, List.mem_cons] at hp
    rcases hp with rfl | hp
    · exact h1
    · exact ih.2 p hp

/-- The members of `marks` one by one. -/
def markList : List Nat := marks.flatMap fun x => List.range' x.1 (x.2 - x.1 + 1)

theorem marks_class' : ∀ r ∈ markList, (gprop r == 6 || gprop r == 8) = true := by decide +kernel

theorem marks_class {r : Nat} (h : InIntervals r marks) : gprop r = 6 ∨ gprop r = 8 := by
  have := marks_class' r (mem_members h)
  simpa using this

theorem marks_swap : ∀ p ∈ [6, 8], ∀ q ∈ [6, 8],
    (∀ st ∈ List.range 11, (transitionProp (st : Int) p).boundary = (transitionProp (st : Int) q).boundary ∧
      (transitionProp ((transitionProp (st : Int) p).newState : Int) q).boundary = false ∧
      (transitionProp ((transitionProp (st : Int) p).newState : Int) q).newState =
        (transitionProp ((transitionProp (st : Int) q).newState : Int) p).newState) ∧
    (transitionProp ((transitionProp (-1) p).newState : Int) q).boundary = false ∧
    (transitionProp ((transitionProp (-1) p).newState : Int) q).newState =
      (transitionProp ((transitionProp (-1) q).newState : Int) p).newState := by decide +kernel

theorem mem_class {r : Nat} (h : InIntervals r marks) : gprop r ∈ [6, 8] := by
  rcases marks_class h with h | h <;> simp [h]

theorem segs_cur {cur cur' : List Nat} (h : Reordered cur cur') : ∀ (v : List Nat) (st : Nat),
    Both Reordered (segs st cur v) (segs st cur' v) := by
  intro v
  induction v generalizing cur cur' with
  | nil => intro st; exact .cons h .nil
  | cons r v ih =>
    intro st
    rw [segs, segs]
    split
    · exact .cons h (Both.refl .refl _)
    · exact ih (h.extend [r]) _

theorem segs_yes {st r : Nat} (h : (T st r).boundary = true) (cur v : List Nat) :
    segs st cur (r :: v) = cur :: segs (T st r).newState [r] v := by rw [segs, if_pos h]

theorem segs_no {st r : Nat} (h : (T st r).boundary = false) (cur v : List Nat) :
    segs st cur (r :: v) = segs (T st r).newState (cur ++ [r]) v := by rw [segs, if_neg (by rw [h]; decide)]

theorem segs_swap {a b : Nat} (ha : InIntervals a marks) (hb : InIntervals b marks) (v : List Nat) :
    ∀ (u : List Nat) (st : Nat) (cur : List Nat), st ≤ 10 →
      Both Reordered (segs st cur (u ++ a :: b :: v)) (segs st cur (u ++ b :: a :: v)) := by
  intro u
  induction u with
  | nil =>
    intro st cur hst
    have m1 := (marks_swap _ (mem_class ha) _ (mem_class hb)).1 st (List.mem_range.mpr (by omega))
    have m2 := (marks_swap _ (mem_class hb) _ (mem_class ha)).1 st (List.mem_range.mpr (by omega))
    have e1 : (T st a).boundary = (T st b).boundary := m1.1
    have e2 : (T (T st a).newState b).boundary = false := m1.2.1
    have e3 : (T (T st b).newState a).boundary = false := m2.2.1
    have e4 : (T (T st a).newState b).newState = (T (T st b).newState a).newState := m1.2.2
    rw [List.nil_append, List.nil_append]
    cases hx : (T st b).boundary
    · rw [segs_no (e1.trans hx), segs_no e2, segs_no hx, segs_no e3, e4]
      refine segs_cur ?_ v _
      rw [List.append_assoc, List.append_assoc]
      exact .swap cur a b [] (.refl _) ha hb
    · rw [segs_yes (e1.trans hx), segs_no e2, segs_yes hx, segs_no e3, e4]
      exact .cons (.refl _) (segs_cur (.swap [] a b [] (.refl _) ha hb) v _)
  | cons r u ih =>
    intro st cur hst
    rw [List.cons_append, List.cons_append, segs, segs]
    split
    · exact .cons (.refl _) (ih _ _ (T_newState_le _ _))
    · exact ih _ _ (T_newState_le _ _)

theorem segments_swap {a b : Nat} (ha : InIntervals a marks) (hb : InIntervals b marks) (u v : List Nat) :
    Both Reordered (segments (u ++ a :: b :: v)) (segments (u ++ b :: a :: v)) := by
  cases u with
  | nil =>
    have m1 := (marks_swap _ (mem_class ha) _ (mem_class hb)).2
    have m2 := (marks_swap _ (mem_class hb) _ (mem_class ha)).2
    have e2 : (T (T (-1) a).newState b).boundary = false := m1.1
    have e3 : (T (T (-1) b).newState a).boundary = false := m2.1
    have e4 : (T (T (-1) a).newState b).newState = (T (T (-1) b).newState a).newState := m1.2
    show Both _ (segs (T (-1) a).newState [a] (b :: v)) (segs (T (-1) b).newState [b] (a :: v))
    rw [segs_no e2, segs_no e3, e4]
    exact segs_cur (.swap [] a b [] (.refl _) ha hb) v _
  | cons r u =>
    show Both _ (segs (T (-1) r).newState [r] (u ++ a :: b :: v)) (segs (T (-1) r).newState [r] (u ++ b :: a :: v))
    exact segs_swap ha hb v u _ _ (T_newState_le _ _)

theorem segments_reordered {rs rs' : List Nat} (h : Reordered rs rs') :
    Both Reordered (segments rs) (segments rs') := by
  induction h with
  | refl => exact Both.refl .refl _
  | swap u a b v _ ha hb ih => exact Both.trans (R := Reordered) (fun _ _ _ h1 h2 => h1.trans h2) ih (segments_swap ha hb u v)

theorem marks_width' : ∀ r ∈ markList, (decide (InIntervals r doubleMarks) || Nat.ble (runeWidth ⟨false, false⟩ r) 1 &&
    Nat.ble (runeWidth ⟨false, true⟩ r) 1 && Nat.ble (runeWidth ⟨true, false⟩ r) 1 && Nat.ble (runeWidth ⟨true, true⟩ r) 1)
      = true := by decide +kernel

theorem marks_width (f : Flags) {r : Nat} (h : InIntervals r marks) (hw : ¬ InIntervals r doubleMarks) :
    runeWidth f r ≤ 1 := by
  have := marks_width' r (mem_members h)
  simp only [Bool.or_eq_true, Bool.and_eq_true, decide_eq_true_eq, Nat.ble_eq] at this
  obtain ⟨a, b⟩ := f
  rcases this with h | ⟨⟨⟨h1, h2⟩, h3⟩, h4⟩
  · exact absurd h hw
  · cases a <;> cases b <;> assumption

theorem width_reordered (f : Flags) {c d : List Nat} (h : Reordered c d) (hw : ∀ r ∈ c, ¬ InIntervals r doubleMarks) :
    clusterWidth (fun x => runeWidth f x) d = clusterWidth (fun x => runeWidth f x) c := by
  induction h with
  | refl => rfl
  | swap u a b v h ha hb ih =>
    rw [← ih]
    have wa := marks_width f ha (hw a ((h.mem a).mpr (by simp)))
    have wb := marks_width f hb (hw b ((h.mem b).mpr (by simp)))
    rw [clusterWidth_append, clusterWidth_append]
    simp only [clusterWidth]
    repeat' split
    all_goals omega

theorem head_reordered {r : Nat} {c d : List Nat} (h : Reordered (r :: c) d) (hr : ¬ InIntervals r marks) :
    ∃ d', d = r :: d' := by
  induction h with
  | refl => exact ⟨c, rfl⟩
  | swap u a b v _ ha hb ih =>
    obtain ⟨d', hd⟩ := ih
    cases u with
    | nil =>
      simp at hd
      exact absurd (hd.1 ▸ ha) hr
    | cons y u =>
      simp at hd
      exact ⟨u ++ b :: a :: v, by rw [hd.1]; rfl⟩

end GoTable
