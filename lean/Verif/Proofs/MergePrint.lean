import Verif.Proofs.StringsJoin
import Verif.Spec.Merge
/-! The printing half of the merges. -/

namespace GoTable
open Spec

variable {σ ι ν ε : Type}

/-! ## One item -/

theorem renderCells_ok (f : Flags) (gw : Nat → Nat → Except Panic UInt16) (g : Nat) (item : List GoString)
    (w : Nat → UInt16) (cols : List (Column σ ι ν ε)) (i : Nat)
    (hw : ∀ c, i ≤ c → c < i + cols.length → gw c g = .ok (w c)) (hl : i + cols.length ≤ item.length) :
    renderCells f gw g item cols i =
      .ok ((cols.zip (item.drop i)).mapIdx fun c p => alignOf f p.1 p.2 (w (i + c))) := by
  induction cols generalizing i with
  | nil => simp [renderCells]
  | cons col cols ih =>
    simp only [List.length_cons] at hl hw
    have hi : i < item.length := by omega
    rw [renderCells, ih (i + 1) (fun c h1 h2 => hw c (by omega) (by omega)) (by omega),
      hw i (Nat.le_refl _) (by omega), cellAt, List.getElem?_eq_getElem hi, List.drop_eq_getElem_cons hi]
    simp only [bind, Except.bind, pure, Except.pure, List.zip_cons_cons, List.mapIdx_cons, Nat.add_zero,
      Except.ok.injEq, List.cons.injEq]
    refine ⟨?_, ?_⟩
    · unfold alignOf; cases col.alignment <;> rfl
    · congr 1
      funext c p
      rw [show i + 1 + c = i + (c + 1) by omega]

theorem renderCells_short (f : Flags) (gw : Nat → Nat → Except Panic UInt16) (g : Nat) (item : List GoString)
    (w : Nat → UInt16) (cols : List (Column σ ι ν ε)) (i : Nat)
    (hw : ∀ c, i ≤ c → c < i + cols.length → gw c g = .ok (w c)) (hl : item.length < i + cols.length)
    (hi : i ≤ item.length) :
    renderCells f gw g item cols i = .error .index := by
  induction cols generalizing i with
  | nil => simp at hl; omega
  | cons col cols ih =>
    simp only [List.length_cons] at hl hw
    rw [renderCells]
    by_cases he : i = item.length
    · rw [cellAt, List.getElem?_eq_none (by omega)]
      rfl
    · rw [ih (i + 1) (fun c h1 h2 => hw c (by omega) (by omega)) (by omega) (by omega),
        hw i (Nat.le_refl _) (by omega), cellAt, List.getElem?_eq_getElem (by omega)]
      rfl

/-! ## One line -/

/-- The items on a line, from group `j` on: up to the first index past the end. -/
def shownFrom (n : Nat) (index : Nat → Nat) (g : Nat) (j : Nat) : List Nat :=
  if j < g then
    if n ≤ index j then [] else index j :: shownFrom n index g (j + 1)
  else []
termination_by g - j

theorem shownFrom_eq_filter (n : Nat) (index : Nat → Nat) (g : Nat)
    (hmono : ∀ a b, a ≤ b → index a ≤ index b) (j : Nat) :
    shownFrom n index g j = ((List.range' j (g - j)).map index).filter (· < n) := by
  fun_induction shownFrom n index g j with
  | case1 j hj hn =>
    symm
    rw [List.filter_eq_nil_iff]
    intro k hk
    rw [List.mem_map] at hk
    obtain ⟨i, hi, rfl⟩ := hk
    have := (List.mem_range'_1.mp hi).1
    have := hmono j i this
    simp; omega
  | case2 j hj hn ih =>
    rw [ih]
    rw [show g - j = (g - (j + 1)) + 1 by omega, List.range'_succ]
    simp [Nat.lt_of_not_le hn]
  | case3 j hj =>
    rw [show g - j = 0 by omega]; simp

/-- A line whose rows are long enough. -/
theorem lineGroups_ok (f : Flags) (t : Table σ ι ν ε) (items : Items)
    (gw : Nat → Nat → Except Panic UInt16) (w : Nat → Nat → UInt16) (index : Nat → Nat) (g : Nat) (j : Nat)
    (hw : ∀ c j, c < t.columns.length → j < g → gw c j = .ok (w j c))
    (hrows : ∀ k ∈ shownFrom items.len index g j, t.columns.length ≤ (items.get k).length) :
    lineGroups f t items gw index g j =
      .ok ((shownFrom items.len index g j).mapIdx
          (fun i (k : Nat) => itemText f t.columns (w (j + i)) (items.get k)) ++
        if (shownFrom items.len index g j).length < g - j then [[]] else []) := by
  fun_induction shownFrom items.len index g j with
  | case1 j hj hn =>
    rw [lineGroups]
    simp only [hj, hn, if_true, List.mapIdx_nil, List.nil_append, List.length_nil]
    rw [if_pos (by omega)]
  | case2 j hj hn ih =>
    rw [lineGroups]
    simp only [hj, hn, if_true, if_false]
    rw [renderCells_ok f gw j _ (w j) t.columns 0 (fun c _ hc => hw c j (by omega) hj)
      (by have := hrows (index j) (by simp); omega)]
    rw [ih (fun k hk => hrows k (by simp [hk]))]
    simp only [bind, Except.bind, pure, Except.pure, List.mapIdx_cons, List.length_cons, Nat.add_zero,
      List.drop_zero, Nat.zero_add, List.cons_append, Except.ok.injEq, List.cons.injEq]
    refine ⟨?_, ?_⟩
    · rw [join_eq]; rfl
    · congr 1
      · congr 1
        funext i k
        rw [show j + 1 + i = j + (i + 1) by omega]
      · have : ((shownFrom items.len index g (j + 1)).length < g - (j + 1)) ↔
            ((shownFrom items.len index g (j + 1)).length + 1 < g - j) := by omega
        simp only [this]
  | case3 j hj =>
    rw [lineGroups]
    simp only [hj, if_false, List.mapIdx_nil, List.nil_append, List.length_nil]
    rw [if_neg (by omega)]

/-- A line with a short row. -/
theorem lineGroups_short (f : Flags) (t : Table σ ι ν ε) (items : Items)
    (gw : Nat → Nat → Except Panic UInt16) (w : Nat → Nat → UInt16) (index : Nat → Nat) (g : Nat) (j : Nat)
    (hw : ∀ c j, c < t.columns.length → j < g → gw c j = .ok (w j c))
    (hrows : ∃ k ∈ shownFrom items.len index g j, (items.get k).length < t.columns.length) :
    lineGroups f t items gw index g j = .error .index := by
  fun_induction shownFrom items.len index g j with
  | case1 j hj hn => simp at hrows
  | case2 j hj hn ih =>
    rw [lineGroups]
    simp only [hj, hn, if_true, if_false]
    by_cases hs : (items.get (index j)).length < t.columns.length
    · rw [renderCells_short f gw j _ (w j) t.columns 0 (fun c _ hc => hw c j (by omega) hj)
        (by omega) (Nat.zero_le _)]
      rfl
    · rw [renderCells_ok f gw j _ (w j) t.columns 0 (fun c _ hc => hw c j (by omega) hj) (by omega)]
      rw [ih (by
        obtain ⟨k, hk, hlt⟩ := hrows
        rcases List.mem_cons.mp hk with rfl | hk
        · exact absurd hlt hs
        · exact ⟨k, hk, hlt⟩)]
      rfl
  | case3 j hj => simp at hrows

/-! ## All lines -/

theorem writeLines_ok (sep : GoString) (line : Nat → Except Panic (List GoString))
    (parts : Nat → List GoString) (n i : Nat) (h : ∀ k, i ≤ k → k < n → line k = .ok (parts k)) :
    writeLines sep line (fun _ => false) n i =
      ⟨(List.range' i (n - i)).map fun k => join sep (parts k) ++ lit "\n", none⟩ := by
  generalize hd : n - i = d
  induction d generalizing i with
  | zero => rw [writeLines]; rw [if_neg (by omega)]; rfl
  | succ d ih =>
    rw [writeLines, if_pos (by omega), h i (Nat.le_refl _) (by omega)]
    simp only [Bool.false_eq_true, if_false]
    rw [ih (i + 1) (fun k h1 h2 => h k (by omega) h2) (by omega)]
    simp [List.range'_succ]

/-- The first line that cannot be made stops the run. -/
theorem writeLines_error (sep : GoString) (line : Nat → Except Panic (List GoString)) (p : Panic)
    (parts : Nat → List GoString) (n i b : Nat) (hib : i ≤ b) (hbn : b < n) (hb : line b = .error p)
    (h : ∀ k, i ≤ k → k < b → line k = .ok (parts k)) :
    writeLines sep line (fun _ => false) n i =
      ⟨(List.range' i (b - i)).map fun k => join sep (parts k) ++ lit "\n", some p⟩ := by
  generalize hd : b - i = d
  induction d generalizing i with
  | zero =>
    have : i = b := by omega
    subst this
    rw [writeLines, if_pos hbn, hb]; rfl
  | succ d ih =>
    rw [writeLines, if_pos (by omega), h i (Nat.le_refl _) (by omega)]
    simp only [Bool.false_eq_true, if_false]
    rw [ih (i + 1) (by omega) (fun k h1 h2 => h k (by omega) h2) (by omega)]
    simp [List.range'_succ]

/-- A failing writer cuts the run short. -/
theorem writeLines_fails (sep : GoString) (line : Nat → Except Panic (List GoString)) (fails : Nat → Bool)
    (n i : Nat) :
    let r := writeLines sep line (fun _ => false) n i
    (∀ k, k < r.written.length → (∀ k' < k, fails (i + k') = false) → fails (i + k) = true →
      writeLines sep line fails n i = ⟨r.written.take (k + 1), some .write⟩) ∧
    ((∀ k < r.written.length, fails (i + k) = false) → writeLines sep line fails n i = r) := by
  generalize hd : n - i = d
  induction d generalizing i with
  | zero =>
    have e : ∀ fl, writeLines sep line fl n i = ⟨[], none⟩ := by
      intro fl; rw [writeLines, if_neg (by omega)]
    rw [e, e]
    simp
  | succ d ih =>
    have hlt : i < n := by omega
    have e1 : ∀ fl, writeLines sep line fl n i = match line i with
        | .error p => ⟨[], some p⟩
        | .ok parts =>
          if fl i then ⟨[join sep parts ++ lit "\n"], some .write⟩
          else ⟨(join sep parts ++ lit "\n") :: (writeLines sep line fl n (i + 1)).written,
            (writeLines sep line fl n (i + 1)).panic⟩ := by
      intro fl; rw [writeLines, if_pos hlt]; cases line i <;> rfl
    have ih' := ih (i + 1) (by omega)
    rw [e1 (fun _ => false), e1 fails]
    rcases line i with p | parts
    · simp
    · simp only [Bool.false_eq_true, if_false]
      generalize writeLines sep line (fun _ => false) n (i + 1) = r' at ih'
      obtain ⟨ih1, ih2⟩ := ih'
      constructor
      · intro k hk hbefore hfail
        cases k with
        | zero => simp only [Nat.add_zero] at hfail; simp [hfail]
        | succ k =>
          have h0 := hbefore 0 (by omega)
          simp only [Nat.add_zero] at h0
          simp only [List.length_cons] at hk
          have := ih1 k (by omega)
            (fun k' hk' => by have := hbefore (k' + 1) (by omega); rwa [show i + (k' + 1) = i + 1 + k' by omega] at this)
            (by rwa [show i + (k + 1) = i + 1 + k by omega] at hfail)
          rw [this]
          simp [h0]
      · intro hall
        have h0 := hall 0 (by simp)
        simp only [Nat.add_zero] at h0
        have := ih2 (fun k hk => by
          have := hall (k + 1) (by simp; omega)
          rwa [show i + (k + 1) = i + 1 + k by omega] at this)
        rw [this]
        simp [h0]

/-! ## Indices -/

theorem lineCountOf_eq (n g : Nat) (hn : 0 < n) (hg : 0 < g) : (lineCountOf n g).toNat = linesFor n g := by
  unfold lineCountOf linesFor
  rw [Int.tdiv_eq_ediv_of_nonneg (by omega)]
  have : ((n : Int) - 1) / (g : Int) = (((n - 1) / g : Nat) : Int) := by
    rw [show (n : Int) - 1 = ((n - 1 : Nat) : Int) by omega, ← Int.natCast_ediv]
  rw [this]
  have h2 : n + g - 1 = (n - 1) + g := by omega
  rw [h2, Nat.add_div_right _ hg]
  rfl

theorem onLineH_eq (n g i : Nat) : shownFrom n (indexH g i) g 0 = onLineH n g i := by
  rw [shownFrom_eq_filter _ _ _ (fun a b h => by unfold indexH; omega)]
  simp only [onLineH, List.range_eq_range', Nat.sub_zero]
  rfl

theorem onLineV_eq (n g L i : Nat) : shownFrom n (indexV L i) g 0 = onLineV n g L i := by
  rw [shownFrom_eq_filter _ _ _ (fun a b h => by
    unfold indexV; exact Nat.add_le_add_right (Nat.mul_le_mul_right _ h) _)]
  simp only [onLineV, List.range_eq_range', Nat.sub_zero]
  rfl

theorem lit_newline : lit "\n" = [0x0A] := by decide +kernel

/-! ## A whole listing -/

/-- Row by row, when every row is long enough. -/
theorem printH_ok (f : Flags) (t : Table σ ι ν ε) (items : Items) (sep : GoString) (g : Nat) (hg : 0 < g)
    (gw : Nat → Nat → Except Panic UInt16) (w : Nat → Nat → UInt16)
    (hw : ∀ c j, c < t.columns.length → j < g → gw c j = .ok (w j c))
    (hrows : ∀ k : Nat, k < items.len → t.columns.length ≤ (items.get k).length) (hn : 0 < items.len) :
    printH f t items sep (fun _ => false) g gw =
      ⟨listingH f t.columns w sep (fun k => items.get k) items.len g, none⟩ := by
  unfold printH
  simp only [lineCountOf_eq _ _ hn hg]
  rw [writeLines_ok sep _ (fun i => ((onLineH items.len g i).mapIdx
      (fun j (k : Nat) => itemText f t.columns (w j) (items.get k))) ++
        if (onLineH items.len g i).length < g then [[]] else [])]
  · simp only [listingH, Nat.sub_zero, ← List.range_eq_range', join_eq, lit_newline]
    rfl
  · intro i _ _
    have := lineGroups_ok f t items gw w (indexH g i) g 0 hw (fun k hk => by
      rw [onLineH_eq] at hk
      unfold onLineH at hk
      rw [List.mem_filter] at hk
      exact hrows k (by simpa using hk.2))
    rw [this, onLineH_eq]
    simp

/-- Column by column, when every row is long enough. -/
theorem printV_ok (f : Flags) (t : Table σ ι ν ε) (items : Items) (sep : GoString) (g : Nat) (hg : 0 < g)
    (gw : Nat → Nat → Except Panic UInt16) (w : Nat → Nat → UInt16)
    (hw : ∀ c j, c < t.columns.length → j < g → gw c j = .ok (w j c))
    (hrows : ∀ k : Nat, k < items.len → t.columns.length ≤ (items.get k).length) (hn : 0 < items.len) :
    printV f t items sep (fun _ => false) g gw =
      ⟨listingV f t.columns w sep (fun k => items.get k) items.len g, none⟩ := by
  unfold printV
  simp only [lineCountOf_eq _ _ hn hg]
  rw [writeLines_ok sep _ (fun i => ((onLineV items.len g (linesFor items.len g) i).mapIdx
      (fun j (k : Nat) => itemText f t.columns (w j) (items.get k))) ++
        if (onLineV items.len g (linesFor items.len g) i).length < g then [[]] else [])]
  · simp only [listingV, Nat.sub_zero, ← List.range_eq_range', join_eq, lit_newline]
    rfl
  · intro i _ _
    have := lineGroups_ok f t items gw w (indexV (linesFor items.len g) i) g 0 hw (fun k hk => by
      rw [onLineV_eq] at hk
      unfold onLineV at hk
      rw [List.mem_filter] at hk
      exact hrows k (by simpa using hk.2))
    rw [this, onLineV_eq]
    simp

end GoTable
