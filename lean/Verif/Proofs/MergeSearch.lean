import Verif.Proofs.MergePrint
import Verif.Proofs.U16
/-! The measuring half of the merges. -/

namespace GoTable
open Spec

variable {σ ι ν ε : Type}

theorem mapM_ok {α β : Type} {f : α → Except Panic β} {g : α → β} {l : List α}
    (h : ∀ x ∈ l, f x = .ok (g x)) : l.mapM f = .ok (l.map g) := by
  induction l with
  | nil => rfl
  | cons a l ih =>
    rw [List.mapM_cons, h a (by simp), ih (fun x hx => h x (by simp [hx]))]
    rfl

theorem mapM_error {α β : Type} {f : α → Except Panic β} {l : List α} {p : Panic}
    (h : ∀ x ∈ l, f x = .error p ∨ ∃ y, f x = .ok y) (hx : ∃ x ∈ l, f x = .error p) :
    l.mapM f = .error p := by
  induction l with
  | nil => simp at hx
  | cons a l ih =>
    rw [List.mapM_cons]
    rcases h a (by simp) with ha | ⟨y, ha⟩
    · rw [ha]; rfl
    · rw [ha]
      rw [ih (fun x hx => h x (by simp [hx])) (by
        obtain ⟨x, hx, he⟩ := hx
        rcases List.mem_cons.mp hx with rfl | hx
        · rw [ha] at he; simp at he
        · exact ⟨x, hx, he⟩)]
      rfl

/-- Concatenation of `g` lists of `n` elements. -/
theorem getElem?_flatMap_range {α : Type} (F : Nat → Nat → α) (n g j c : Nat) (hj : j < g) (hc : c < n) :
    ((List.range g).flatMap fun j => (List.range n).map (F j))[j * n + c]? = some (F j c) := by
  induction g with
  | zero => omega
  | succ g ih =>
    rw [List.range_succ, List.flatMap_append]
    have hlen : ((List.range g).flatMap fun j => (List.range n).map (F j)).length = g * n := by
      rw [List.length_flatMap]; simp [List.map_const', List.sum_replicate_nat]
    by_cases h : j < g
    · rw [List.getElem?_append_left]
      · exact ih h
      · rw [hlen]
        calc j * n + c < j * n + n := by omega
          _ = (j + 1) * n := by rw [Nat.add_mul]; omega
          _ ≤ g * n := Nat.mul_le_mul_right _ h
    · have : j = g := by omega
      subst this
      rw [List.getElem?_append_right (by rw [hlen]; omega), hlen]
      simp [hc]

theorem vmax {a b : UInt16} : a ≤ (if b > a then b else a) ∧ b ≤ (if b > a then b else a) := by
  by_cases h : b > a
  · rw [if_pos h]; exact ⟨UInt16.le_of_lt h, UInt16.le_refl _⟩
  · rw [if_neg h]; exact ⟨UInt16.le_refl _, UInt16.not_lt.mp h⟩

/-! ## Widest cells, row by row -/

theorem maxCellWidthH_ok (f : Flags) (items : Items) (c g i : Nat) (hg : 0 < g) (mw : UInt16)
    (hrows : ∀ k : Nat, k < items.len → c < (items.get k).length) :
    ∃ m, maxCellWidthH f items c g i mw = .ok m ∧ mw ≤ m ∧
      (∀ (k : Nat) x, i ≤ k → k < items.len → k % g = i % g → (items.get k)[c]? = some x →
        visualWidth f x ≤ m) ∧
      (m = mw ∨ ∃ (k : Nat) (x : GoString), k < items.len ∧ k % g = i % g ∧ (items.get k)[c]? = some x ∧ visualWidth f x = m) := by
  generalize hd : items.len - i = d
  induction d using Nat.strongRecOn generalizing i mw with
  | _ d ih =>
    rw [maxCellWidthH]
    by_cases hi : i < items.len
    · rw [dif_pos ⟨hi, hg⟩, cellAt, List.getElem?_eq_getElem (hrows i hi)]
      simp only
      generalize hx : (items.get i)[c]'(hrows i hi) = x
      obtain ⟨m, h1, h2, h3, h4⟩ := ih (items.len - (i + g)) (by omega) (i + g)
        (if visualWidth f x > mw then visualWidth f x else mw) rfl
      have hm := @vmax mw (visualWidth f x)
      have hmod : (i + g) % g = i % g := by simp
      refine ⟨m, h1, UInt16.le_trans hm.1 h2, fun k y hik hk hkg hy => ?_, ?_⟩
      · by_cases he : k = i
        · subst he
          rw [List.getElem?_eq_getElem (hrows k hi)] at hy
          simp only [Option.some.injEq] at hy
          rw [← hy, hx]
          exact UInt16.le_trans hm.2 h2
        · refine h3 k y ?_ hk (by rw [hmod]; exact hkg) hy
          -- k > i and k ≡ i mod g
          have h1 := Nat.div_add_mod k g
          have h2 := Nat.div_add_mod i g
          rw [hkg] at h1
          have : i / g < k / g := by
            by_cases hq : i / g < k / g
            · exact hq
            · have : g * (k / g) ≤ g * (i / g) := Nat.mul_le_mul_left _ (by omega)
              omega
          have : g * (i / g + 1) ≤ g * (k / g) := Nat.mul_le_mul_left _ this
          rw [Nat.mul_add] at this
          omega
      · rcases h4 with h4 | ⟨k, y, hk, hkg, hy, hv⟩
        · by_cases hgt : visualWidth f x > mw
          · rw [if_pos hgt] at h4
            exact Or.inr ⟨i, x, hi, rfl, by rw [List.getElem?_eq_getElem (hrows i hi), hx], h4.symm⟩
          · rw [if_neg hgt] at h4; exact Or.inl h4
        · exact Or.inr ⟨k, y, hk, by rw [hkg, hmod], hy, hv⟩
    · rw [dif_neg (by omega)]
      exact ⟨mw, rfl, UInt16.le_refl _, fun k x h1 h2 => by omega, Or.inl rfl⟩

theorem maxCellWidthH_cases (f : Flags) (items : Items) (c g i : Nat) (mw : UInt16) :
    maxCellWidthH f items c g i mw = .error .index ∨ ∃ m, maxCellWidthH f items c g i mw = .ok m := by
  fun_induction maxCellWidthH f items c g i mw with
  | case1 i mw h p hp =>
    unfold cellAt at hp
    split at hp <;> simp_all
  | case2 i mw h s hs w ih => exact ih
  | case3 i mw h => exact Or.inr ⟨mw, rfl⟩

theorem maxCellWidthH_short (f : Flags) (items : Items) (c g i : Nat) (hg : 0 < g) (mw : UInt16)
    (k : Nat) (hk : k < items.len) (hik : i ≤ k) (hkg : k % g = i % g) (hs : (items.get k).length ≤ c) :
    maxCellWidthH f items c g i mw = .error .index := by
  fun_induction maxCellWidthH f items c g i mw with
  | case1 i mw h p hp =>
    unfold cellAt at hp
    split at hp <;> simp_all
  | case2 i mw h s hs' w ih =>
    have hne : k ≠ i := by
      rintro rfl
      unfold cellAt at hs'
      rw [List.getElem?_eq_none hs] at hs'
      simp at hs'
    refine ih ?_ (by simpa using hkg)
    have h1 := Nat.div_add_mod k g
    have h2 := Nat.div_add_mod i g
    rw [hkg] at h1
    have : i / g < k / g := by
      by_cases hq : i / g < k / g
      · exact hq
      · have : g * (k / g) ≤ g * (i / g) := Nat.mul_le_mul_left _ (by omega)
        omega
    have : g * (i / g + 1) ≤ g * (k / g) := Nat.mul_le_mul_left _ this
    rw [Nat.mul_add] at this
    omega
  | case3 i mw h => omega

/-- The value of a measurement that cannot fail. -/
def okOr0 : Except Panic UInt16 → UInt16
  | .ok m => m
  | .error _ => 0

/-- Widest cells of group `j`, row by row in `g` groups. -/
def wH (f : Flags) (items : Items) (g : Nat) (j c : Nat) : UInt16 := okOr0 (maxCellWidthH f items c g j 0)

theorem mergedRowsWidthH_ok (f : Flags) (t : Table σ ι ν ε) (items : Items) (g : Nat)
    (hrows : FullRows t items) :
    mergedRowsWidthH f t items g =
      .ok ((List.range g).flatMap fun j => (List.range t.columns.length).map (wH f items g j)) := by
  unfold mergedRowsWidthH
  rw [mapM_ok (g := fun j => (List.range t.columns.length).map (wH f items g j))]
  · simp [bind, Except.bind, pure, Except.pure, List.flatMap]
  · intro j hj
    have hj' := List.mem_range.mp hj
    refine mapM_ok (fun c hc => ?_)
    have hc' := List.mem_range.mp hc
    obtain ⟨m, hm, _⟩ := maxCellWidthH_ok f items c g j (by omega) 0
      (fun k hk => Nat.lt_of_lt_of_le hc' (hrows k hk))
    rw [hm, wH, hm]
    rfl

theorem mergedRowsWidthH_short (f : Flags) (t : Table σ ι ν ε) (items : Items) (g : Nat) (hg : 0 < g)
    (hrows : ¬ FullRows t items) : mergedRowsWidthH f t items g = .error .index := by
  unfold FullRows at hrows
  have : ∃ k : Nat, k < items.len ∧ (items.get k).length < t.columns.length := by
    refine Classical.byContradiction fun hc => hrows fun k hk => ?_
    refine Nat.le_of_not_lt fun hlt => hc ⟨k, hk, hlt⟩
  obtain ⟨k, hk, hs⟩ := this
  unfold mergedRowsWidthH
  have inner : ∀ j, ((List.range t.columnCount).mapM fun colI => maxCellWidthH f items colI g j 0) = .error .index ∨
      ∃ y, ((List.range t.columnCount).mapM fun colI => maxCellWidthH f items colI g j 0) = .ok y := by
    intro j
    by_cases he : ∃ c ∈ List.range t.columnCount, maxCellWidthH f items c g j 0 = .error .index
    · exact Or.inl (mapM_error (fun c _ => maxCellWidthH_cases f items c g j 0) he)
    · refine Or.inr ⟨_, mapM_ok (g := fun c => okOr0 (maxCellWidthH f items c g j 0)) fun c hc => ?_⟩
      rcases maxCellWidthH_cases f items c g j 0 with h | ⟨m, h⟩
      · exact absurd ⟨c, hc, h⟩ he
      · rw [h]; rfl
  rw [mapM_error (fun j _ => inner j) ⟨k % g, List.mem_range.mpr (Nat.mod_lt _ hg), ?_⟩]
  · rfl
  · exact mapM_error (fun c _ => maxCellWidthH_cases f items c g (k % g) 0)
      ⟨(items.get k).length, List.mem_range.mpr hs,
        maxCellWidthH_short f items _ g _ hg 0 k hk (Nat.mod_le _ _) (by simp) (Nat.le_refl _)⟩

theorem wH_widest (f : Flags) (t : Table σ ι ν ε) (items : Items) (g : Nat) (hrows : FullRows t items) :
    WidestCells (visualWidth f) (fun k => items.get k) items.len t.columns.length g (fun k => k % g)
      (wH f items g) := by
  intro j c hj hc
  obtain ⟨m, h1, h2, h3, h4⟩ := maxCellWidthH_ok f items c g j (by omega) 0
    (fun k hk => Nat.lt_of_lt_of_le hc (hrows k hk))
  have hm : wH f items g j c = m := by rw [wH, h1]; rfl
  rw [hm]
  have hjm : j % g = j := Nat.mod_eq_of_lt hj
  refine ⟨fun k x hk hkg hx => h3 k x ?_ hk (by rw [hjm]; exact hkg) hx, ?_⟩
  · have : k % g ≤ k := Nat.mod_le _ _
    simp only at hkg
    omega
  · rcases h4 with h4 | ⟨k, x, hk, hkg, hx, hv⟩
    · exact Or.inl h4
    · exact Or.inr ⟨k, x, hk, by rw [hjm] at hkg; exact hkg, hx, hv⟩

/-! ## Widest cells, column by column -/

theorem maxCellWidthV_ok (f : Flags) (items : Items) (c e i : Nat) (mw : UInt16) (he : e ≤ items.len)
    (hrows : ∀ k : Nat, k < items.len → c < (items.get k).length) :
    ∃ m, maxCellWidthV f items c e i mw = .ok m ∧ mw ≤ m ∧
      (∀ (k : Nat) x, i ≤ k → k < e → (items.get k)[c]? = some x → visualWidth f x ≤ m) ∧
      (m = mw ∨ ∃ (k : Nat) (x : GoString), i ≤ k ∧ k < e ∧ (items.get k)[c]? = some x ∧ visualWidth f x = m) := by
  generalize hd : e - i = d
  induction d generalizing i mw with
  | zero =>
    rw [maxCellWidthV, if_neg (by omega)]
    exact ⟨mw, rfl, UInt16.le_refl _, fun k x h1 h2 => by omega, Or.inl rfl⟩
  | succ d ih =>
    have hi : i < items.len := by omega
    rw [maxCellWidthV, if_pos (by omega), cellAt, List.getElem?_eq_getElem (hrows i hi)]
    simp only
    generalize hx : (items.get i)[c]'(hrows i hi) = x
    obtain ⟨m, h1, h2, h3, h4⟩ := ih (i + 1) (if visualWidth f x > mw then visualWidth f x else mw) (by omega)
    have hm := @vmax mw (visualWidth f x)
    refine ⟨m, h1, UInt16.le_trans hm.1 h2, fun k y hik hk hy => ?_, ?_⟩
    · by_cases hke : k = i
      · subst hke
        rw [List.getElem?_eq_getElem (hrows k hi)] at hy
        simp only [Option.some.injEq] at hy
        rw [← hy, hx]
        exact UInt16.le_trans hm.2 h2
      · exact h3 k y (by omega) hk hy
    · rcases h4 with h4 | ⟨k, y, hik, hk, hy, hv⟩
      · by_cases hgt : visualWidth f x > mw
        · rw [if_pos hgt] at h4
          exact Or.inr ⟨i, x, Nat.le_refl _, by omega, by rw [List.getElem?_eq_getElem (hrows i hi), hx], h4.symm⟩
        · rw [if_neg hgt] at h4; exact Or.inl h4
      · exact Or.inr ⟨k, y, by omega, hk, hy, hv⟩

theorem maxCellWidthV_cases (f : Flags) (items : Items) (c e i : Nat) (mw : UInt16) :
    maxCellWidthV f items c e i mw = .error .index ∨ ∃ m, maxCellWidthV f items c e i mw = .ok m := by
  fun_induction maxCellWidthV f items c e i mw with
  | case1 i mw h p hp =>
    unfold cellAt at hp
    split at hp <;> simp_all
  | case2 i mw h s hs w ih => exact ih
  | case3 i mw h => exact Or.inr ⟨mw, rfl⟩

theorem maxCellWidthV_short (f : Flags) (items : Items) (c e i : Nat) (mw : UInt16)
    (k : Nat) (hk : k < e) (hik : i ≤ k) (hs : (items.get k).length ≤ c) :
    maxCellWidthV f items c e i mw = .error .index := by
  fun_induction maxCellWidthV f items c e i mw with
  | case1 i mw h p hp =>
    unfold cellAt at hp
    split at hp <;> simp_all
  | case2 i mw h s hs' w ih =>
    have hne : k ≠ i := by
      rintro rfl
      unfold cellAt at hs'
      rw [List.getElem?_eq_none hs] at hs'
      simp at hs'
    exact ih (by omega)
  | case3 i mw h => omega

/-- End of group `j`, column by column. -/
def endV (n L j : Nat) : Nat := if (j + 1) * L > n then n else (j + 1) * L

/-- Widest cells of group `j`, column by column in `g` groups. -/
def wV (f : Flags) (items : Items) (g : Nat) (j c : Nat) : UInt16 :=
  let L := linesFor items.len g
  okOr0 (maxCellWidthV f items c (endV items.len L j) (j * L) 0)

/-- The last of `g` groups would be empty. -/
def lastEmpty (n g : Nat) : Prop := n ≤ (g - 1) * linesFor n g

theorem lineCountOf_zero (g : Nat) (hg : 2 ≤ g) : lineCountOf 0 g = 1 := by
  unfold lineCountOf
  rw [show ((0 : Nat) : Int) - 1 = -1 by simp, Int.neg_tdiv, Int.tdiv_eq_ediv_of_nonneg (by omega)]
  rw [Int.ediv_eq_zero_of_lt (by omega) (by omega)]; simp

theorem linesFor_pos (n g : Nat) (hn : 0 < n) (hg : 0 < g) : 0 < linesFor n g := by
  unfold linesFor; exact Nat.div_pos (by omega) hg

theorem lineCountOf_nat (n g : Nat) (hn : 0 < n) (hg : 0 < g) : lineCountOf n g = (linesFor n g : Nat) := by
  have h := lineCountOf_eq n g hn hg
  have hp := linesFor_pos n g hn hg
  omega

theorem mergedRowsWidthV_nil (f : Flags) (t : Table σ ι ν ε) (items : Items) (g : Nat) (hg : 2 ≤ g)
    (h : lastEmpty items.len g) : mergedRowsWidthV f t items g = .ok none := by
  unfold mergedRowsWidthV
  rcases Nat.eq_zero_or_pos items.len with h0 | h0
  · simp only [h0, lineCountOf_zero g hg]
    simp only [Int.tdiv_one]
    rw [if_neg (by omega), if_pos (by omega)]
    rfl
  · have hL := linesFor_pos items.len g h0 (by omega)
    simp only [lineCountOf_nat items.len g h0 (by omega)]
    rw [if_neg (by omega), if_pos]
    · rfl
    · rw [Int.tdiv_eq_ediv_of_nonneg (by omega)]
      rw [show (items.len : Int) - 1 = ((items.len - 1 : Nat) : Int) by omega, ← Int.natCast_ediv]
      unfold lastEmpty at h
      have : (items.len - 1) / linesFor items.len g < g - 1 := by
        rw [Nat.div_lt_iff_lt_mul hL]; omega
      omega

theorem mergedRowsWidthV_some (f : Flags) (t : Table σ ι ν ε) (items : Items) (g : Nat) (hg : 2 ≤ g)
    (h : ¬ lastEmpty items.len g) :
    mergedRowsWidthV f t items g = (do
      let rows ← (List.range g).mapM fun j =>
        (List.range t.columns.length).mapM fun c =>
          maxCellWidthV f items c (endV items.len (linesFor items.len g) j) (j * linesFor items.len g) 0
      return some rows.flatten) := by
  have h0 : 0 < items.len := by
    unfold lastEmpty at h; omega
  have hL := linesFor_pos items.len g h0 (by omega)
  unfold mergedRowsWidthV
  simp only [lineCountOf_nat items.len g h0 (by omega)]
  rw [if_neg (by omega), if_neg]
  · simp only [Int.toNat_natCast]; rfl
  · rw [Int.tdiv_eq_ediv_of_nonneg (by omega)]
    rw [show (items.len : Int) - 1 = ((items.len - 1 : Nat) : Int) by omega, ← Int.natCast_ediv]
    unfold lastEmpty at h
    have : g - 1 ≤ (items.len - 1) / linesFor items.len g := by
      rw [Nat.le_div_iff_mul_le hL]; omega
    omega

theorem endV_le (n L j : Nat) : endV n L j ≤ n := by unfold endV; split <;> omega

theorem mergedRowsWidthV_ok (f : Flags) (t : Table σ ι ν ε) (items : Items) (g : Nat) (hg : 2 ≤ g)
    (h : ¬ lastEmpty items.len g) (hrows : FullRows t items) :
    mergedRowsWidthV f t items g =
      .ok (some ((List.range g).flatMap fun j => (List.range t.columns.length).map (wV f items g j))) := by
  rw [mergedRowsWidthV_some f t items g hg h]
  rw [mapM_ok (g := fun j => (List.range t.columns.length).map (wV f items g j))]
  · simp [bind, Except.bind, pure, Except.pure, List.flatMap]
  · intro j _
    refine mapM_ok (fun c hc => ?_)
    have hc' := List.mem_range.mp hc
    obtain ⟨m, hm, _⟩ := maxCellWidthV_ok f items c (endV items.len (linesFor items.len g) j)
      (j * linesFor items.len g) 0 (endV_le _ _ _) (fun k hk => Nat.lt_of_lt_of_le hc' (hrows k hk))
    simp only [wV]
    rw [hm]
    rfl

theorem mem_groupV (n g k : Nat) (hn : k < n) (hg : 0 < g) :
    k / linesFor n g < g ∧ k / linesFor n g * linesFor n g ≤ k ∧
      k < endV n (linesFor n g) (k / linesFor n g) := by
  have hL := linesFor_pos n g (by omega) hg
  have hgL : n ≤ g * linesFor n g := by
    unfold linesFor
    have := Nat.div_add_mod (n + g - 1) g
    have := Nat.mod_lt (n + g - 1) hg
    omega
  have h1 := Nat.div_add_mod k (linesFor n g)
  have h2 := Nat.mod_lt k hL
  refine ⟨by rw [Nat.div_lt_iff_lt_mul hL]; omega, ?_, ?_⟩
  · rw [Nat.mul_comm]; omega
  · unfold endV
    split
    · exact hn
    · rw [Nat.add_mul, Nat.one_mul, Nat.mul_comm]; omega

theorem mergedRowsWidthV_short (f : Flags) (t : Table σ ι ν ε) (items : Items) (g : Nat) (hg : 2 ≤ g)
    (h : ¬ lastEmpty items.len g) (hrows : ¬ FullRows t items) :
    mergedRowsWidthV f t items g = .error .index := by
  have : ∃ k : Nat, k < items.len ∧ (items.get k).length < t.columns.length := by
    refine Classical.byContradiction fun hc => hrows fun k hk => ?_
    refine Nat.le_of_not_lt fun hlt => hc ⟨k, hk, hlt⟩
  obtain ⟨k, hk, hs⟩ := this
  rw [mergedRowsWidthV_some f t items g hg h]
  have inner : ∀ j, ((List.range t.columns.length).mapM fun c =>
        maxCellWidthV f items c (endV items.len (linesFor items.len g) j) (j * linesFor items.len g) 0) = .error .index ∨
      ∃ y, ((List.range t.columns.length).mapM fun c =>
        maxCellWidthV f items c (endV items.len (linesFor items.len g) j) (j * linesFor items.len g) 0) = .ok y := by
    intro j
    by_cases he : ∃ c ∈ List.range t.columns.length,
        maxCellWidthV f items c (endV items.len (linesFor items.len g) j) (j * linesFor items.len g) 0 = .error .index
    · exact Or.inl (mapM_error (fun c _ => maxCellWidthV_cases f items c _ _ 0) he)
    · refine Or.inr ⟨_, mapM_ok (g := fun c => okOr0 (maxCellWidthV f items c
        (endV items.len (linesFor items.len g) j) (j * linesFor items.len g) 0)) fun c hc => ?_⟩
      rcases maxCellWidthV_cases f items c (endV items.len (linesFor items.len g) j)
        (j * linesFor items.len g) 0 with h | ⟨m, h⟩
      · exact absurd ⟨c, hc, h⟩ he
      · rw [h]; rfl
  have hm := mem_groupV items.len g k hk (by omega)
  rw [mapM_error (fun j _ => inner j) ⟨k / linesFor items.len g, List.mem_range.mpr hm.1, ?_⟩]
  · rfl
  · exact mapM_error (fun c _ => maxCellWidthV_cases f items c _ _ 0)
      ⟨(items.get k).length, List.mem_range.mpr hs,
        maxCellWidthV_short f items _ _ _ 0 k hm.2.2 hm.2.1 (Nat.le_refl _)⟩

theorem wV_widest (f : Flags) (t : Table σ ι ν ε) (items : Items) (g : Nat) (hrows : FullRows t items) :
    WidestCells (visualWidth f) (fun k => items.get k) items.len t.columns.length g
      (fun k => k / linesFor items.len g) (wV f items g) := by
  intro j c hj hc
  obtain ⟨m, h1, h2, h3, h4⟩ := maxCellWidthV_ok f items c (endV items.len (linesFor items.len g) j)
    (j * linesFor items.len g) 0 (endV_le _ _ _) (fun k hk => Nat.lt_of_lt_of_le hc (hrows k hk))
  have hm : wV f items g j c = m := by simp only [wV]; rw [h1]; rfl
  rw [hm]
  refine ⟨fun k x hk hkg hx => ?_, ?_⟩
  · have := mem_groupV items.len g k hk (by omega)
    simp only at hkg
    rw [hkg] at this
    exact h3 k x this.2.1 this.2.2 hx
  · rcases h4 with h4 | ⟨k, x, hik, hk, hx, hv⟩
    · exact Or.inl h4
    · have hk' : k < items.len := Nat.lt_of_lt_of_le hk (endV_le _ _ _)
      have hL := linesFor_pos items.len g (by omega) (by omega)
      refine Or.inr ⟨k, x, hk', ?_, hx, hv⟩
      have hlt : k < (j + 1) * linesFor items.len g := by
        unfold endV at hk; split at hk <;> omega
      exact Nat.div_eq_of_lt_le hik hlt

end GoTable
