import Verif.Proofs.MergeRun
import Mathlib.Tactic.Ring
import Mathlib.Algebra.Order.BigOperators.Group.Finset
/-! When the search row by row ends. -/

namespace GoTable
open Spec

variable {σ ι ν ε : Type}

/-- Once there are as many groups as items, the width table only grows by zeros. -/
theorem wH_past (f : Flags) (t : Table σ ι ν ε) (items : Items) (G G' j c : Nat) (hrows : FullRows t items)
    (hG : items.len ≤ G) (hG' : items.len ≤ G') (hj : j < G) (hj' : j < G') (hc : c < t.columns.length) :
    wH f items G j c = wH f items G' j c := by
  have key : ∀ G G', items.len ≤ G → items.len ≤ G' → j < G → j < G' →
      wH f items G j c ≤ wH f items G' j c := by
    intro G G' hG hG' hj hj'
    rcases (wH_widest f t items G hrows j c hj hc).2 with h0 | ⟨k, x, hk, hg, hx, hv⟩
    · rw [h0]; exact UInt16.zero_le
    · rw [← hv]
      refine (wH_widest f t items G' hrows j c hj' hc).1 k x hk ?_ hx
      dsimp only at hg ⊢
      rw [Nat.mod_eq_of_lt (by omega)] at hg ⊢
      exact hg
  exact UInt16.le_antisymm (key G G' hG hG' hj hj') (key G' G hG' hG hj' hj)

theorem wH_past_zero (f : Flags) (t : Table σ ι ν ε) (items : Items) (G j c : Nat) (hrows : FullRows t items)
    (_hG : items.len ≤ G) (hj : j < G) (hn : items.len ≤ j) (hc : c < t.columns.length) :
    wH f items G j c = 0 := by
  rcases (wH_widest f t items G hrows j c hj hc).2 with h0 | ⟨k, x, hk, hg, hx, hv⟩
  · exact h0
  · dsimp only at hg
    rw [Nat.mod_eq_of_lt (by omega)] at hg
    omega

/-- One more group once the items have run out adds the separator and the inner spaces. -/
theorem fullWidth_past (f : Flags) (t : Table σ ι ν ε) (items : Items) (sepLen G : Nat) (hrows : FullRows t items)
    (hG : items.len ≤ G) (hpos : 0 < G) :
    fullWidth t.columns.length sepLen (G + 1) (wH f items (G + 1)) =
      fullWidth t.columns.length sepLen G (wH f items G) + (sepLen + (t.columns.length - 1)) := by
  have h1 : ((List.range (G + 1)).map fun j =>
        ((List.range t.columns.length).map fun c => (wH f items (G + 1) j c).toNat).sum +
          (t.columns.length - 1)).sum =
      ((List.range G).map fun j =>
        ((List.range t.columns.length).map fun c => (wH f items G j c).toNat).sum +
          (t.columns.length - 1)).sum + (t.columns.length - 1) := by
    rw [List.range_succ, List.map_append, List.sum_append]
    congr 1
    · congr 1
      apply List.map_congr_left
      intro j hj
      congr 2
      apply List.map_congr_left
      intro c hc
      have hj := List.mem_range.mp hj
      rw [wH_past f t items (G + 1) G j c hrows (by omega) hG (by omega) hj (List.mem_range.mp hc)]
    · simp only [List.map_cons, List.map_nil, List.sum_cons, List.sum_nil, Nat.add_zero]
      have : ((List.range t.columns.length).map fun c => (wH f items (G + 1) G c).toNat) =
          (List.range t.columns.length).map fun _ => 0 := by
        apply List.map_congr_left
        intro c hc
        rw [wH_past_zero f t items (G + 1) G c hrows (by omega) (by omega) hG (List.mem_range.mp hc)]
        rfl
      rw [this]
      have hz : ∀ m : Nat, ((List.range m).map fun _ => 0).sum = 0 := by
        intro m; induction m with
        | zero => rfl
        | succ m ih => rw [List.range_succ, List.map_append, List.sum_append, ih]; rfl
      rw [hz, Nat.zero_add]
  unfold fullWidth
  rw [h1]
  obtain ⟨k, rfl⟩ : ∃ k, G = k + 1 := ⟨G - 1, by omega⟩
  simp only [Nat.add_sub_cancel]
  ring

theorem fullWidth_past_add (f : Flags) (t : Table σ ι ν ε) (items : Items) (sepLen G k : Nat)
    (hrows : FullRows t items) (hG : items.len ≤ G) (hpos : 0 < G) :
    fullWidth t.columns.length sepLen (G + k) (wH f items (G + k)) =
      fullWidth t.columns.length sepLen G (wH f items G) + k * (sepLen + (t.columns.length - 1)) := by
  induction k with
  | zero => simp
  | succ k ih =>
    rw [← Nat.add_assoc, fullWidth_past f t items sepLen (G + k) hrows (by omega) (by omega), ih]
    ring

/-- If the increment modulo 2^16 is positive and fits above `maxWidth`, some group count does not fit. -/
theorem exists_misfit (f : Flags) (t : Table σ ι ν ε) (items : Items) (maxWidth sepLen G : Nat)
    (hrows : FullRows t items) (hG : items.len ≤ G) (hpos : 0 < G)
    (hd : 0 < (sepLen + (t.columns.length - 1)) % 65536)
    (hm : (sepLen + (t.columns.length - 1)) % 65536 + maxWidth ≤ 65535) :
    ∃ k < 65536, ¬ fitsH f t items maxWidth sepLen (G + k) := by
  refine Classical.byContradiction fun hc => ?_
  have hall : ∀ k < 65536, fitsH f t items maxWidth sepLen (G + k) :=
    fun k hk => Classical.byContradiction fun h => hc ⟨k, hk, h⟩
  unfold fitsH at hall
  generalize hd' : sepLen + (t.columns.length - 1) = D at hd hm
  have key : ∀ k, k < 65536 → k ≤ fullWidth t.columns.length sepLen (G + k) (wH f items (G + k)) % 65536 := by
    intro k
    induction k with
    | zero => intro _; exact Nat.zero_le _
    | succ k ih =>
      intro hk
      have h1 := ih (by omega)
      have h2 := hall k (by omega)
      rw [← Nat.add_assoc, fullWidth_past f t items sepLen (G + k) hrows (by omega) (by omega), hd', Nat.add_mod,
        Nat.mod_eq_of_lt (a := _ + _) (by omega)]
      omega
  have h1 := key 65535 (by omega)
  have h2 := hall 65535 (by omega)
  omega

theorem list_sum_range (v : Nat → Nat) (n : Nat) : ((List.range n).map v).sum = ∑ k ∈ Finset.range n, v k := rfl

/-- The widest cells of one column, over all groups, are no wider than all its cells together. -/
theorem sum_wH_le (f : Flags) (t : Table σ ι ν ε) (items : Items) (G c : Nat) (hG : 0 < G)
    (hrows : FullRows t items) (hc : c < t.columns.length) :
    ((List.range G).map fun j => (wH f items G j c).toNat).sum ≤
      ((List.range items.len).map fun k : Nat => (visualWidth f ((items.get k)[c]?.getD [])).toNat).sum := by
  rw [list_sum_range, list_sum_range]
  rw [← Finset.sum_fiberwise_of_maps_to (s := Finset.range items.len) (t := Finset.range G) (g := fun k => k % G)
    (fun k _ => Finset.mem_range.mpr (Nat.mod_lt _ hG))]
  apply Finset.sum_le_sum
  intro j hj
  rcases (wH_widest f t items G hrows j c (Finset.mem_range.mp hj) hc).2 with h0 | ⟨k, x, hk, hg, hx, hv⟩
  · rw [h0]; exact Nat.zero_le _
  · rw [← hv]
    have hmem : k ∈ (Finset.range items.len).filter (fun k => k % G = j) := by
      rw [Finset.mem_filter, Finset.mem_range]; exact ⟨hk, hg⟩
    have := Finset.single_le_sum (f := fun k : Nat => (visualWidth f ((items.get k)[c]?.getD [])).toNat)
      (fun _ _ => Nat.zero_le _) hmem
    dsimp only at this hx
    rw [hx] at this
    exact this

/-- With one column and no separator nothing is added between groups. -/
theorem fitsH_narrow (f : Flags) (t : Table σ ι ν ε) (items : Items) (maxWidth G : Nat) (hG : 0 < G)
    (hrows : FullRows t items) (hc : t.columns.length = 1)
    (hsum : ((List.range items.len).map fun k : Nat => (visualWidth f ((items.get k)[0]?.getD [])).toNat).sum ≤
      maxWidth) : fitsH f t items maxWidth 0 G := by
  have h := sum_wH_le f t items G 0 hG hrows (by omega)
  unfold fitsH fullWidth
  rw [hc]
  have e : ((List.range G).map fun j =>
      ((List.range 1).map fun c => (wH f items G j c).toNat).sum + (1 - 1)) =
      (List.range G).map fun j => (wH f items G j 0).toNat := by
    apply List.map_congr_left
    intro j _
    simp
  rw [e, Nat.mul_zero, Nat.add_zero]
  exact Nat.le_trans (Nat.mod_le _ _) (Nat.le_trans h hsum)

end GoTable
