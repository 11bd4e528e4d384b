import Verif.Proofs.MergeRun
/-! What a merge depends on. -/

namespace GoTable
open Spec

variable {σ ι ν ε σ' ι' ν' ε' : Type}

section
variable (f : Flags) {t : Table σ ι ν ε} {t' : Table σ' ι' ν' ε'} {items items' : Items}

theorem view_length (h : columnView f t = columnView f t') : t.columns.length = t'.columns.length := by
  simpa [columnView] using congrArg List.length h

theorem tableWidth_view (h : columnView f t = columnView f t') (m : UInt16) : t.tableWidth m = t'.tableWidth m := by
  have key : ∀ {σ ι ν ε : Type} (t : Table σ ι ν ε) (a : UInt16),
      t.columns.foldl (fun width col => width + t.columnWidth col.name) a =
        (columnView f t).foldl (fun width p => width + p.2) a := by
    intro σ ι ν ε t a
    rw [columnView, List.foldl_map]
  have hl := view_length f h
  unfold Table.tableWidth Table.columnCount
  simp only [Table.width, key, h, hl]

theorem getWidthTable_view (h : columnView f t = columnView f t') : getWidthTable t = getWidthTable t' := by
  have key : ∀ {σ ι ν ε : Type} (t : Table σ ι ν ε) (c j : Nat), getWidthTable t c j =
      match (columnView f t)[c]? with | some p => .ok p.2 | none => .error .index := by
    intro σ ι ν ε t c j
    unfold getWidthTable columnView
    rw [List.getElem?_map]
    cases t.columns[c]? <;> rfl
  funext c j
  rw [key, key, h]

theorem renderCells_view (gw : Nat → Nat → Except Panic UInt16) (g : Nat) (item : List GoString)
    (cols : List (Column σ ι ν ε)) (cols' : List (Column σ' ι' ν' ε')) (i : Nat)
    (h : cols.map (alignOf f) = cols'.map (alignOf f)) :
    renderCells f gw g item cols i = renderCells f gw g item cols' i := by
  induction cols generalizing cols' i with
  | nil =>
    cases cols' with
    | nil => rfl
    | cons c cs => simp at h
  | cons c cs ih =>
    cases cols' with
    | nil => simp at h
    | cons c' cs' =>
      simp only [List.map_cons, List.cons.injEq] at h
      have h1 := h.1
      unfold alignOf at h1
      simp only [renderCells, ih cs' (i + 1) h.2]
      rcases hc : c.alignment with _ | al <;> rcases hc' : c'.alignment with _ | al' <;>
        simp only [hc, hc', Option.getD_none, Option.getD_some] at h1 <;> simp only [h1]

theorem view_alignments (h : columnView f t = columnView f t') :
    t.columns.map (alignOf f) = t'.columns.map (alignOf f) := by
  have := congrArg (List.map Prod.fst) h
  simpa [columnView, Function.comp_def] using this

theorem lineGroups_view (h : columnView f t = columnView f t') (hlen : items.len = items'.len)
    (hrow : ∀ k : Nat, k < items.len → items.get k = items'.get k)
    (gw : Nat → Nat → Except Panic UInt16) (index : Nat → Nat) (g j : Nat) :
    lineGroups f t items gw index g j = lineGroups f t' items' gw index g j := by
  generalize hd : g - j = d
  induction d generalizing j with
  | zero => rw [lineGroups.eq_1 f t, lineGroups.eq_1 f t', if_neg (by omega), if_neg (by omega)]
  | succ d ih =>
    rw [lineGroups.eq_1 f t, lineGroups.eq_1 f t', if_pos (show j < g by omega), if_pos (show j < g by omega)]
    simp only [hlen]
    split
    · rfl
    · rw [hrow _ (by omega), renderCells_view f gw j _ _ _ 0 (view_alignments f h), ih (j + 1) (by omega)]

theorem printH_view (h : columnView f t = columnView f t') (hlen : items.len = items'.len)
    (hrow : ∀ k : Nat, k < items.len → items.get k = items'.get k) (sep : GoString) (fails : Nat → Bool)
    (g : Nat) (gw : Nat → Nat → Except Panic UInt16) :
    printH f t items sep fails g gw = printH f t' items' sep fails g gw := by
  unfold printH
  simp only [lineGroups_view f h hlen hrow, hlen]

theorem printV_view (h : columnView f t = columnView f t') (hlen : items.len = items'.len)
    (hrow : ∀ k : Nat, k < items.len → items.get k = items'.get k) (sep : GoString) (fails : Nat → Bool)
    (g : Nat) (gw : Nat → Nat → Except Panic UInt16) :
    printV f t items sep fails g gw = printV f t' items' sep fails g gw := by
  unfold printV
  simp only [lineGroups_view f h hlen hrow, hlen]

theorem maxCellWidthH_view (hlen : items.len = items'.len)
    (hrow : ∀ k : Nat, k < items.len → items.get k = items'.get k) (c g i : Nat) (mw : UInt16) :
    maxCellWidthH f items c g i mw = maxCellWidthH f items' c g i mw := by
  fun_induction maxCellWidthH f items c g i mw with
  | case1 i mw hi p hp =>
    rw [maxCellWidthH, dif_pos (by omega), ← hrow i hi.1, hp]
  | case2 i mw hi s hs w ih =>
    rw [maxCellWidthH.eq_1 f items', dif_pos (by omega), ← hrow i hi.1, hs]
    exact ih
  | case3 i mw hi => rw [maxCellWidthH, dif_neg (by omega)]

theorem maxCellWidthV_view (hrow : ∀ k : Nat, k < items.len → items.get k = items'.get k) (c e i : Nat)
    (he : e ≤ items.len) (mw : UInt16) :
    maxCellWidthV f items c e i mw = maxCellWidthV f items' c e i mw := by
  fun_induction maxCellWidthV f items c e i mw with
  | case1 i mw hi p hp =>
    rw [maxCellWidthV, if_pos hi, ← hrow i (by omega), hp]
  | case2 i mw hi s hs w ih =>
    rw [maxCellWidthV.eq_1 f items', if_pos hi, ← hrow i (by omega), hs]
    exact ih
  | case3 i mw hi => rw [maxCellWidthV, if_neg hi]

theorem mergedRowsWidthH_view (hc : t.columns.length = t'.columns.length) (hlen : items.len = items'.len)
    (hrow : ∀ k : Nat, k < items.len → items.get k = items'.get k) (g : Nat) :
    mergedRowsWidthH f t items g = mergedRowsWidthH f t' items' g := by
  unfold mergedRowsWidthH Table.columnCount
  simp only [maxCellWidthH_view f hlen hrow, hc]

theorem mergedRowsWidthV_view (hc : t.columns.length = t'.columns.length) (hlen : items.len = items'.len)
    (hrow : ∀ k : Nat, k < items.len → items.get k = items'.get k) (g : Nat) :
    mergedRowsWidthV f t items g = mergedRowsWidthV f t' items' g := by
  have hrow' : ∀ c e i mw, e ≤ items'.len → maxCellWidthV f items c e i mw = maxCellWidthV f items' c e i mw :=
    fun c e i mw he => maxCellWidthV_view f hrow c e i (by omega) mw
  unfold mergedRowsWidthV Table.columnCount
  simp only [hc, hlen]
  split
  · rfl
  split
  · rfl
  congr 2
  funext j
  congr 1
  funext c
  apply hrow'
  split <;> omega

theorem compactLoopH_view (hc : t.columns.length = t'.columns.length) (hlen : items.len = items'.len)
    (hrow : ∀ k : Nat, k < items.len → items.get k = items'.get k) (mw margin : UInt16) (g fuel e : Nat)
    (cw : List UInt16) :
    compactLoopH f t items mw margin g fuel e cw = compactLoopH f t' items' mw margin g fuel e cw := by
  induction fuel generalizing e cw with
  | zero => rfl
  | succ fuel ih =>
    simp only [compactLoopH, mergedRowsWidthH_view f hc hlen hrow, Table.columnCount, hc, ih]
    rfl

theorem compactLoopV_view (hc : t.columns.length = t'.columns.length) (hlen : items.len = items'.len)
    (hrow : ∀ k : Nat, k < items.len → items.get k = items'.get k) (mw margin : UInt16) (g : Nat) (hg : 1 ≤ g)
    (e : Nat) (cw : List UInt16) :
    compactLoopV f t items mw margin g hg e cw = compactLoopV f t' items' mw margin g hg e cw := by
  fun_induction compactLoopV f t items mw margin g hg e cw with
  | case1 e cw gc p hm =>
    rw [mergedRowsWidthV_view f hc hlen hrow] at hm
    rw [compactLoopV]
    split
    · rename_i q hq; rw [hm] at hq; cases hq; rfl
    · rename_i hq; rw [hm] at hq; cases hq
    · rename_i q hq; rw [hm] at hq; cases hq
  | case2 e cw gc hm =>
    rw [mergedRowsWidthV_view f hc hlen hrow] at hm
    rw [compactLoopV]
    split
    · rename_i q hq; rw [hm] at hq; cases hq
    · rfl
    · rename_i q hq; rw [hm] at hq; cases hq
  | case3 e cw gc cwn hm hgt =>
    rw [mergedRowsWidthV_view f hc hlen hrow] at hm
    rw [Table.columnCount, hc] at hgt
    rw [compactLoopV]
    split
    · rename_i q hq; rw [hm] at hq; cases hq
    · simp_all
    · rename_i q hq; rw [hm] at hq; cases hq; exact (if_pos hgt).symm
  | case4 e cw gc cwn hm hgt ih =>
    rw [mergedRowsWidthV_view f hc hlen hrow] at hm
    rw [Table.columnCount, hc] at hgt
    rw [compactLoopV.eq_1 f t']
    split
    · rename_i q hq; rw [hm] at hq; cases hq
    · rename_i hq; rw [hm] at hq; cases hq
    · rename_i q hq; rw [hm] at hq; cases hq; exact ih.trans (if_neg hgt).symm

theorem mergeH_view (h : columnView f t = columnView f t') (hlen : items.len = items'.len)
    (hrow : ∀ k : Nat, k < items.len → items.get k = items'.get k) (arg : Int) (sep : GoString) (compact : Bool)
    (fails : Nat → Bool) (fuel : Nat) :
    mergeRowsHorizontal f t items arg sep compact fails fuel =
      mergeRowsHorizontal f t' items' arg sep compact fails fuel := by
  have hc := view_length f h
  unfold mergeRowsHorizontal initialGroupCount compactCalcH
  simp only [tableWidth_view f h, compactLoopH_view f hc hlen hrow, printH_view f h hlen hrow,
    getWidthTable_view f h, Table.columnCount, hc]

theorem mergeV_view (h : columnView f t = columnView f t') (hlen : items.len = items'.len)
    (hrow : ∀ k : Nat, k < items.len → items.get k = items'.get k) (arg : Int) (sep : GoString) (compact : Bool)
    (fails : Nat → Bool) :
    mergeRowsVertical f t items arg sep compact fails =
      mergeRowsVertical f t' items' arg sep compact fails := by
  have hc := view_length f h
  have hi : initialGroupCount t (maxWidthOf arg) (u16 sep.length) =
      initialGroupCount t' (maxWidthOf arg) (u16 sep.length) := by
    unfold initialGroupCount; simp only [tableWidth_view f h]
  rcases hg : initialGroupCount t (maxWidthOf arg) (u16 sep.length) with p | g0
  · have key : ∀ {σ ι ν ε : Type} (t : Table σ ι ν ε) (items : Items),
        initialGroupCount t (maxWidthOf arg) (u16 sep.length) = .error p →
        mergeRowsVertical f t items arg sep compact fails = ⟨[], some p⟩ := by
      intro σ ι ν ε t items h
      unfold mergeRowsVertical
      dsimp only
      split
      · rename_i q hq; rw [h] at hq; cases hq; rfl
      · rename_i q hq; rw [h] at hq; cases hq
    rw [key t items hg, key t' items' (by rw [← hi]; exact hg)]
  · rw [mergeV_eq f t items arg sep compact fails g0 hg,
      mergeV_eq f t' items' arg sep compact fails g0 (by rw [← hi]; exact hg)]
    unfold compactCalcV
    simp only [compactLoopV_view f hc hlen hrow, printV_view f h hlen hrow, getWidthTable_view f h,
      Table.columnCount, hc]

end

end GoTable
