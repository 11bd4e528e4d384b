import Verif.Spec.Monospace
import Verif.Spec.Tables
import Verif.Proofs.Tables
/-!
Tables as step functions: several tables are compared on all code points by walking through the places where one of them
changes.
-/

namespace GoTable
open Spec

/-- The value at `r`: `d` before the first step, from each step on the value given there. -/
def stepAt {α : Type} (d : α) : List (Nat × α) → Nat → α
  | [], _ => d
  | (s, v) :: l, r => if r < s then d else stepAt v l r

/-- Two step functions side by side; `n` bounds the number of steps. -/
def zipUpTo {α β : Type} : Nat → α → β → List (Nat × α) → List (Nat × β) → List (Nat × α × β)
  | 0, _, _, _, _ => []
  | _ + 1, a, _, [], lb => lb.map fun e => (e.1, a, e.2)
  | _ + 1, _, b, (s, v) :: la, [] => ((s, v) :: la).map fun e => (e.1, e.2, b)
  | n + 1, a, b, (s, v) :: la, (t, w) :: lb =>
    if s ≤ t then (s, v, b) :: zipUpTo n v b la ((t, w) :: lb)
    else (t, a, w) :: zipUpTo n a w ((s, v) :: la) lb

/-- Two step functions side by side. -/
def zipSteps {α β : Type} (a : α) (b : β) (la : List (Nat × α)) (lb : List (Nat × β)) : List (Nat × α × β) :=
  zipUpTo (la.length + lb.length) a b la lb

theorem stepAt_map {α β : Type} (g : α → β) (d : α) (l : List (Nat × α)) (r : Nat) :
    stepAt (g d) (l.map fun e => (e.1, g e.2)) r = g (stepAt d l r) := by
  induction l generalizing d with
  | nil => rfl
  | cons e l ih =>
    rw [List.map_cons, stepAt, stepAt, ih]
    split <;> rfl

theorem stepAt_zipUpTo {α β : Type} (n : Nat) (a : α) (b : β) (la : List (Nat × α)) (lb : List (Nat × β)) (r : Nat)
    (hn : la.length + lb.length ≤ n) :
    stepAt (a, b) (zipUpTo n a b la lb) r = (stepAt a la r, stepAt b lb r) := by
  fun_induction zipUpTo n a b la lb with
  | case1 a b la lb =>
    have h1 : la = [] := List.length_eq_zero_iff.mp (by omega)
    have h2 : lb = [] := List.length_eq_zero_iff.mp (by omega)
    subst h1; subst h2; rfl
  | case2 n a b lb => exact stepAt_map (fun v => (a, v)) b lb r
  | case3 n a b s v la => exact stepAt_map (fun v => (v, b)) a _ r
  | case4 n a b s v la t w lb hst ih =>
    rw [stepAt, ih (by simp only [List.length_cons] at hn ⊢; omega)]
    by_cases h : r < s
    · rw [if_pos h, stepAt, stepAt, if_pos h, if_pos (by omega)]
    · rw [if_neg h]
      congr 1
      rw [stepAt, if_neg h]
  | case5 n a b s v la t w lb hst ih =>
    rw [stepAt, ih (by simp only [List.length_cons] at hn ⊢; omega)]
    by_cases h : r < t
    · rw [if_pos h, stepAt, stepAt, if_pos (by omega), if_pos h]
    · rw [if_neg h]
      congr 1
      rw [stepAt, if_neg h]

theorem stepAt_zip {α β : Type} (a : α) (b : β) (la : List (Nat × α)) (lb : List (Nat × β)) (r : Nat) :
    stepAt (a, b) (zipSteps a b la lb) r = (stepAt a la r, stepAt b lb r) :=
  stepAt_zipUpTo _ a b la lb r (Nat.le_refl _)

/-- `p` holds of the value `v` from `s` on and of all later values. Values that are replaced at once do not count. -/
def checkSteps {α : Type} (p : α → Bool) : Nat → α → List (Nat × α) → Bool
  | _, v, [] => p v
  | s, v, (t, w) :: l => (decide (t ≤ s) || p v) && checkSteps p t w l

theorem stepAt_check {α : Type} (p : α → Bool) (s : Nat) (d : α) (l : List (Nat × α)) (r : Nat)
    (h : checkSteps p s d l = true) (hr : s ≤ r) : p (stepAt d l r) = true := by
  induction l generalizing s d with
  | nil => exact h
  | cons e l ih =>
    rw [checkSteps, Bool.and_eq_true, Bool.or_eq_true, decide_eq_true_eq] at h
    rw [stepAt]
    split
    · exact h.1.resolve_left (by omega)
    · exact ih e.1 e.2 h.2 (by omega)

/-- How many places from `s` on and before `N` have a value with `p`. -/
def countSteps {α : Type} (p : α → Bool) (N : Nat) : Nat → α → List (Nat × α) → Nat
  | s, v, [] => if p v then N - s else 0
  | s, v, (t, w) :: l =>
    if t ≤ s then countSteps p N s w l
    else if N ≤ t then if p v then N - s else 0
    else (if p v then t - s else 0) + countSteps p N t w l

theorem countP_const {α : Type} (q : Nat → Bool) (p : α → Bool) (v : α) (s n : Nat)
    (h : ∀ r, s ≤ r → r < s + n → q r = p v) : (List.range' s n).countP q = if p v then n else 0 := by
  rw [show (List.range' s n).countP q = (List.range' s n).countP fun _ => p v from
    List.countP_congr fun r hr => by
      rw [List.mem_range'_1] at hr
      rw [h r hr.1 hr.2]]
  cases p v <;> simp

theorem countP_steps {α : Type} (p : α → Bool) (N s : Nat) (v : α) (l : List (Nat × α)) :
    (List.range' s (N - s)).countP (fun r => p (stepAt v l r)) = countSteps p N s v l := by
  induction l generalizing s v with
  | nil => exact countP_const _ p v s _ fun r _ _ => rfl
  | cons e l ih =>
    obtain ⟨t, w⟩ := e
    rw [countSteps]
    split
    · rename_i h
      rw [← ih]
      apply List.countP_congr
      intro r hr
      rw [List.mem_range'_1] at hr
      rw [stepAt, if_neg (by omega)]
    · split
      · rename_i h1 h2
        refine countP_const _ p v s _ fun r _ hr => ?_
        rw [stepAt, if_pos (by omega)]
      · rename_i h1 h2
        have : List.range' s (N - s) = List.range' s (t - s) ++ List.range' t (N - t) := by
          have := List.range'_append_1 (s := s) (m := t - s) (n := N - t)
          rw [show s + (t - s) = t by omega, show t - s + (N - t) = N - s by omega] at this
          exact this.symm
        rw [this, List.countP_append, ← ih]
        congr 1
        · refine countP_const _ p v s _ fun r _ hr => ?_
          rw [stepAt, if_pos (by omega)]
        · apply List.countP_congr
          intro r hr
          rw [List.mem_range'_1] at hr
          rw [stepAt, if_neg (by omega)]

/-- The steps of a table of rows: at the start of a row its value, after its end 0. -/
def rowSteps : List (Nat × Nat × Nat) → List (Nat × Nat)
  | [] => []
  | (lo, hi, v) :: t => (lo, v) :: (hi + 1, 0) :: rowSteps t

theorem stepAt_rows (d : List (Nat × Nat × Nat)) (hs : SortedIntervals (ranges d)) (r : Nat) :
    stepAt 0 (rowSteps d) r = (rowValue d r).getD 0 := by
  induction d with
  | nil => rfl
  | cons e d ih =>
    obtain ⟨lo, hi, v⟩ := e
    have hs' : SortedIntervals (ranges d) :=
      ⟨fun e he => hs.1 e (List.mem_cons_of_mem _ he), (List.pairwise_cons.mp hs.2).2⟩
    have hlt := (List.pairwise_cons.mp hs.2).1
    have hle : lo ≤ hi := hs.1 (lo, hi) List.mem_cons_self
    rw [rowSteps, stepAt, stepAt, ih hs']
    unfold rowValue
    rw [List.find?_cons]
    by_cases h1 : r < lo
    · rw [if_pos h1]
      have hn : (decide (lo ≤ r) && decide (r ≤ hi)) = false := by simp; omega
      rw [hn]
      have : d.find? (fun e => decide (e.1 ≤ r) && decide (r ≤ e.2.1)) = none := by
        rw [List.find?_eq_none]
        intro e he hp
        simp only [Bool.and_eq_true, decide_eq_true_eq] at hp
        have := hlt (e.1, e.2.1) (List.mem_map.mpr ⟨e, he, rfl⟩)
        dsimp only at this
        omega
      rw [this]; rfl
    · rw [if_neg h1]
      by_cases h2 : r < hi + 1
      · rw [if_pos h2]
        have hp : (decide (lo ≤ r) && decide (r ≤ hi)) = true := by simp; omega
        rw [hp]; rfl
      · rw [if_neg h2]
        have hn : (decide (lo ≤ r) && decide (r ≤ hi)) = false := by simp; omega
        rw [hn]

/-- A table of intervals as a table of rows. -/
def marked (t : List (Nat × Nat)) : List (Nat × Nat × Nat) := t.map fun e => (e.1, e.2, 1)

theorem ranges_marked (t : List (Nat × Nat)) : ranges (marked t) = t := by
  unfold ranges marked
  rw [List.map_map]
  exact List.map_id _

theorem stepAt_marked (t : List (Nat × Nat)) (hs : SortedIntervals t) (r : Nat) :
    stepAt 0 (rowSteps (marked t)) r = if InIntervals r t then 1 else 0 := by
  rw [stepAt_rows _ (by rw [ranges_marked]; exact hs)]
  unfold rowValue marked
  rw [List.find?_map]
  by_cases h : InIntervals r t
  · rw [if_pos h]
    obtain ⟨e, he, h1, h2⟩ := h
    cases hf : t.find? ((fun e : Nat × Nat × Nat => decide (e.1 ≤ r) && decide (r ≤ e.2.1)) ∘ fun e => (e.1, e.2, 1)) with
    | some x => rfl
    | none =>
      have := List.find?_eq_none.mp hf e he
      simp [h1, h2] at this
  · rw [if_neg h]
    have : t.find? ((fun e : Nat × Nat × Nat => decide (e.1 ≤ r) && decide (r ≤ e.2.1)) ∘ fun e => (e.1, e.2, 1)) = none := by
      rw [List.find?_eq_none]
      intro e he hp
      simp only [Function.comp, Bool.and_eq_true, decide_eq_true_eq] at hp
      exact h ⟨e, he, hp⟩
    rw [this]; rfl

end GoTable
