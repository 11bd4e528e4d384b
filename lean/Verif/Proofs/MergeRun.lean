import Verif.Proofs.MergeTotal
/-! What a merge call does, as a whole. -/

namespace GoTable
open Spec

variable {σ ι ν ε : Type}

/-! ## Widest cells are unique -/

theorem widest_unique {vw : GoString → UInt16} {rows : Nat → List GoString} {n cols g : Nat}
    {groupOf : Nat → Nat} {w w' : Nat → Nat → UInt16} (h : WidestCells vw rows n cols g groupOf w)
    (h' : WidestCells vw rows n cols g groupOf w') (j c : Nat) (hj : j < g) (hc : c < cols) :
    w j c = w' j c := by
  have key : ∀ {w w' : Nat → Nat → UInt16}, WidestCells vw rows n cols g groupOf w →
      WidestCells vw rows n cols g groupOf w' → w j c ≤ w' j c := by
    intro w w' h h'
    rcases (h j c hj hc).2 with h0 | ⟨k, x, hk, hg, hx, hv⟩
    · rw [h0]; exact UInt16.zero_le
    · rw [← hv]; exact (h' j c hj hc).1 k x hk hg hx
  exact UInt16.le_antisymm (key h h') (key h' h)

theorem fullWidth_congr {cols sepLen g : Nat} {w w' : Nat → Nat → UInt16}
    (h : ∀ j c, j < g → c < cols → w j c = w' j c) : fullWidth cols sepLen g w = fullWidth cols sepLen g w' := by
  unfold fullWidth
  congr 2
  apply List.map_congr_left
  intro j hj
  congr 2
  apply List.map_congr_left
  intro c hc
  rw [h j c (List.mem_range.mp hj) (List.mem_range.mp hc)]

theorem fits_iff {vw : GoString → UInt16} {rows : Nat → List GoString} {n cols sepLen maxWidth : Nat}
    {groupOf : Nat → Nat → Nat} {g : Nat} {w : Nat → Nat → UInt16}
    (h : WidestCells vw rows n cols g (groupOf g) w) :
    Fits vw rows n cols sepLen maxWidth groupOf g ↔ fullWidth cols sepLen g w % 65536 ≤ maxWidth := by
  constructor
  · rintro ⟨w', h1, h2⟩
    rw [fullWidth_congr (widest_unique h h1)]; exact h2
  · intro h2; exact ⟨w, h, h2⟩

theorem fitsH_iff (f : Flags) (t : Table σ ι ν ε) (items : Items) (maxWidth sepLen g : Nat)
    (hrows : FullRows t items) :
    fitsH f t items maxWidth sepLen g ↔
      Fits (visualWidth f) (fun k => items.get k) items.len t.columns.length sepLen maxWidth groupH g :=
  (fits_iff (groupOf := groupH) (wH_widest f t items g hrows)).symm

theorem fitsV_iff (f : Flags) (t : Table σ ι ν ε) (items : Items) (maxWidth sepLen g : Nat)
    (hrows : FullRows t items) :
    fitsV f t items maxWidth sepLen g ↔ usableV items.len g ∧
      Fits (visualWidth f) (fun k => items.get k) items.len t.columns.length sepLen maxWidth
        (groupV items.len) g := by
  unfold fitsV lastEmpty usableV
  rw [fits_iff (groupOf := groupV items.len) (wV_widest f t items g hrows), Nat.not_le]

/-! ## Runs -/

/-- The recorded widths, by column number. -/
def wT (t : Table σ ι ν ε) (_j c : Nat) : UInt16 :=
  match t.columns[c]? with
  | some col => t.columnWidth col.name
  | none => 0

theorem getWidthTable_ok (t : Table σ ι ν ε) (c j : Nat) (h : c < t.columns.length) :
    getWidthTable t c j = .ok (wT t j c) := by
  unfold getWidthTable wT
  rw [List.getElem?_eq_getElem h]

theorem getWidthCompact_ok (w : Nat → Nat → UInt16) (n g c j : Nat) (hc : c < n) (hj : j < g) :
    getWidthCompact ((List.range g).flatMap fun j => (List.range n).map (w j)) n c j = .ok (w j c) := by
  unfold getWidthCompact widthAt
  rw [getElem?_flatMap_range w n g j c hj hc]

/-- A merge row by row with full rows: still searching, or printing with the chosen groups. -/
theorem mergeH_run (f : Flags) (t : Table σ ι ν ε) (items : Items) (arg : Int) (sep : GoString)
    (compact : Bool) (fails : Nat → Bool) (fuel : Nat)
    (hp : pitch t sep.length % 65536 ≠ 0) (hrows : FullRows t items) :
    (compact = true ∧ (∀ k < fuel, fitsH f t items (clamped arg) sep.length
        (plainGroups (clamped arg) sep.length (pitch t sep.length) + k + 1)) ∧
      mergeRowsHorizontal f t items arg sep compact fails fuel = none) ∨
    ∃ g w gw, Chosen f t items arg sep.length compact groupH (fun _ => True) g w ∧
      (∀ c j, c < t.columns.length → j < g → gw c j = .ok (w j c)) ∧
      mergeRowsHorizontal f t items arg sep compact fails fuel = some (printH f t items sep fails g gw) := by
  have hc := columns_of_pitch hp
  unfold mergeRowsHorizontal
  simp only [initialGroupCount_ok t arg sep.length hp]
  generalize hg0 : plainGroups (clamped arg) sep.length (pitch t sep.length) = g0
  have chosen0 : (compact = true → ¬ fitsH f t items (clamped arg) sep.length (g0 + 1)) →
      Chosen f t items arg sep.length compact groupH (fun _ => True) g0 (wT t) := by
    intro hstop
    refine ⟨by omega, fun _ => hg0.symm, fun _ j c col hcol => by simp [wT, hcol], fun h => by omega,
      fun G h1 h2 => by omega, fun hcomp hx => hstop hcomp ?_⟩
    rw [fitsH_iff f t items _ _ _ hrows]
    exact hx.2
  cases compact with
  | false =>
    simp only [Bool.false_eq_true, if_false]
    exact Or.inr ⟨g0, wT t, getWidthTable t, chosen0 (by simp),
      fun c j h _ => getWidthTable_ok t c j h, rfl⟩
  | true =>
    simp only [if_true]
    rcases compactCalcH_cases f t items arg sep.length g0 fuel hrows hc with ⟨h1, h2⟩ | ⟨e, _, h2, h3, h4⟩
    · rw [h2]
      exact Or.inl ⟨trivial, h1, rfl⟩
    · rw [h4]
      simp only
      right
      by_cases he : e = 0
      · subst he
        simp only [gt_iff_lt, Nat.lt_irrefl, if_false]
        exact ⟨g0, wT t, getWidthTable t, chosen0 (fun _ => h3), fun c j h _ => getWidthTable_ok t c j h, rfl⟩
      · rw [if_pos (by omega), if_neg he]
        refine ⟨g0 + e, wH f items (g0 + e), getWidthCompact (tableH f t items (g0 + e)) t.columnCount,
          ⟨by omega, by simp, fun h => by omega, fun _ => wH_widest f t items _ hrows, fun G hG1 hG2 => ?_,
            fun _ hx => h3 ?_⟩, ?_, rfl⟩
        · refine ⟨trivial, ?_⟩
          have := h2 (G - g0 - 1) (by omega)
          rw [show g0 + (G - g0 - 1) + 1 = G by omega, fitsH_iff f t items _ _ _ hrows] at this
          exact this
        · rw [fitsH_iff f t items _ _ _ hrows]; exact hx.2
        · intro c j h1 h2
          exact getWidthCompact_ok (wH f items (g0 + e)) t.columns.length (g0 + e) c j h1 h2

theorem mergeV_eq (f : Flags) (t : Table σ ι ν ε) (items : Items) (arg : Int) (sep : GoString)
    (compact : Bool) (fails : Nat → Bool) (g0 : Nat)
    (h : initialGroupCount t (maxWidthOf arg) (u16 sep.length) = .ok g0) :
    mergeRowsVertical f t items arg sep compact fails =
      if compact then
        match compactCalcV f t items (maxWidthOf arg) (u16 sep.length) g0 (initialGroupCount_pos t _ _ _ h) with
        | .error p => ⟨[], some p⟩
        | .ok (extra, cellWidth) =>
          if extra > 0 then
            printV f t items sep fails (g0 + extra) (getWidthCompact cellWidth t.columnCount)
          else printV f t items sep fails g0 (getWidthTable t)
      else printV f t items sep fails g0 (getWidthTable t) := by
  unfold mergeRowsVertical
  dsimp only
  split
  · rename_i p heq; rw [h] at heq; cases heq
  · rename_i g heq
    rw [h] at heq
    cases heq
    rfl

/-- A merge column by column with full rows. -/
theorem mergeV_run (f : Flags) (t : Table σ ι ν ε) (items : Items) (arg : Int) (sep : GoString)
    (compact : Bool) (fails : Nat → Bool)
    (hp : pitch t sep.length % 65536 ≠ 0) (hrows : FullRows t items) :
    ∃ g w gw, Chosen f t items arg sep.length compact (groupV items.len) (usableV items.len) g w ∧
      (∀ c j, c < t.columns.length → j < g → gw c j = .ok (w j c)) ∧
      mergeRowsVertical f t items arg sep compact fails = printV f t items sep fails g gw := by
  have hc := columns_of_pitch hp
  obtain ⟨g0, heq⟩ : ∃ g0, plainGroups (clamped arg) sep.length (pitch t sep.length) = g0 := ⟨_, rfl⟩
  have hg := initialGroupCount_ok t arg sep.length hp
  rw [heq] at hg
  rw [mergeV_eq f t items arg sep compact _ g0 hg]
  have hg0 := heq
  have hpos := plainGroups_pos (clamped arg) sep.length (pitch t sep.length)
  have chosen0 : (compact = true → ¬ fitsV f t items (clamped arg) sep.length (g0 + 1)) →
      Chosen f t items arg sep.length compact (groupV items.len) (usableV items.len) g0 (wT t) := by
    intro hstop
    refine ⟨by omega, fun _ => hg0.symm, fun _ j c col hcol => by simp [wT, hcol], fun h => by omega,
      fun G h1 h2 => by omega, fun hcomp hx => hstop hcomp ?_⟩
    rw [fitsV_iff f t items _ _ _ hrows]
    exact hx
  cases compact with
  | false =>
    simp only [Bool.false_eq_true, if_false]
    exact ⟨g0, wT t, getWidthTable t, chosen0 (by simp), fun c j h _ => getWidthTable_ok t c j h, rfl⟩
  | true =>
    simp only [if_true]
    obtain ⟨e, h2, h3, h4⟩ := compactCalcV_cases f t items arg sep.length g0 (by omega) hrows hc
    rw [h4]
    simp only
    by_cases he : e = 0
    · subst he
      simp only [gt_iff_lt, Nat.lt_irrefl, if_false]
      exact ⟨g0, wT t, getWidthTable t, chosen0 (fun _ => h3), fun c j h _ => getWidthTable_ok t c j h, rfl⟩
    · rw [if_pos (by omega), if_neg he]
      refine ⟨g0 + e, wV f items (g0 + e), getWidthCompact (tableV f t items (g0 + e)) t.columnCount,
        ⟨by omega, by simp, fun h => by omega, fun _ => wV_widest f t items _ hrows, fun G hG1 hG2 => ?_,
          fun _ hx => h3 ?_⟩, ?_, rfl⟩
      · have := h2 (G - g0 - 1) (by omega)
        rw [show g0 + (G - g0 - 1) + 1 = G by omega, fitsV_iff f t items _ _ _ hrows] at this
        exact this
      · rw [fitsV_iff f t items _ _ _ hrows]; exact hx
      · intro c j h1 h2
        exact getWidthCompact_ok (wV f items (g0 + e)) t.columns.length (g0 + e) c j h1 h2

/-! ## Panics -/

theorem writeLines_panic (sep : GoString) (line : Nat → Except Panic (List GoString)) (p : Panic)
    (n : Nat) (h : ∀ k < n, line k = .error p ∨ ∃ parts, line k = .ok parts) :
    ((∀ k < n, ∃ parts, line k = .ok parts) → (writeLines sep line (fun _ => false) n 0).panic = none) ∧
    ((∃ k < n, line k = .error p) → (writeLines sep line (fun _ => false) n 0).panic = some p) := by
  have tot : ∀ k, ∃ parts, ∀ q, line k = .ok q → q = parts := fun k => by
    rcases hk : line k with e | parts
    · exact ⟨[], by simp⟩
    · exact ⟨parts, fun q hq => by simpa using hq.symm⟩
  have hP : ∃ parts : Nat → List GoString, ∀ k q, line k = .ok q → line k = .ok (parts k) :=
    ⟨fun k => (tot k).choose, fun k q hq => by
      have := (tot k).choose_spec q hq
      rw [hq]; exact congrArg _ this⟩
  obtain ⟨parts, hP⟩ := hP
  constructor
  · intro hall
    rw [writeLines_ok sep line parts n 0 (fun k _ hk => by
      obtain ⟨q, hq⟩ := hall k hk; exact hP k q hq)]
  · rintro ⟨k, hk, hke⟩
    obtain ⟨b, h1, h2, h3⟩ := exists_least (P := fun k => line k = .error p) k hke
    rw [writeLines_error sep line p parts n 0 b (Nat.zero_le _) (by omega) h2 (fun k _ hk => by
      rcases h k (by omega) with he | ⟨q, hq⟩
      · exact absurd he (h3 k hk)
      · exact hP k q hq)]

/-- Which lines cannot be made. -/
theorem lineGroups_cases (f : Flags) (t : Table σ ι ν ε) (items : Items)
    (gw : Nat → Nat → Except Panic UInt16) (w : Nat → Nat → UInt16) (index : Nat → Nat) (g : Nat)
    (hw : ∀ c j, c < t.columns.length → j < g → gw c j = .ok (w j c)) :
    ((∃ k ∈ shownFrom items.len index g 0, (items.get k).length < t.columns.length) ∧
      lineGroups f t items gw index g 0 = .error .index) ∨
    ((∀ k ∈ shownFrom items.len index g 0, t.columns.length ≤ (items.get k).length) ∧
      ∃ parts, lineGroups f t items gw index g 0 = .ok parts) := by
  by_cases h : ∃ k ∈ shownFrom items.len index g 0, (items.get k).length < t.columns.length
  · exact Or.inl ⟨h, lineGroups_short f t items gw w index g 0 hw h⟩
  · have h' : ∀ k ∈ shownFrom items.len index g 0, t.columns.length ≤ (items.get k).length :=
      fun k hk => Nat.le_of_not_lt fun hlt => h ⟨k, hk, hlt⟩
    exact Or.inr ⟨h', _, lineGroups_ok f t items gw w index g 0 hw h'⟩

theorem not_fullRows {t : Table σ ι ν ε} {items : Items} (h : ¬ FullRows t items) :
    ∃ k : Nat, k < items.len ∧ (items.get k).length < t.columns.length := by
  refine Classical.byContradiction fun hc => h fun k hk => ?_
  exact Nat.le_of_not_lt fun hlt => hc ⟨k, hk, hlt⟩

theorem printH_panic (f : Flags) (t : Table σ ι ν ε) (items : Items) (sep : GoString) (g : Nat) (hg : 0 < g)
    (gw : Nat → Nat → Except Panic UInt16) (w : Nat → Nat → UInt16)
    (hw : ∀ c j, c < t.columns.length → j < g → gw c j = .ok (w j c)) :
    (FullRows t items → (printH f t items sep (fun _ => false) g gw).panic = none) ∧
    (¬ FullRows t items → (printH f t items sep (fun _ => false) g gw).panic = some .index) := by
  unfold printH
  have hcases := fun i => lineGroups_cases f t items gw w (indexH g i) g hw
  obtain ⟨h1, h2⟩ := writeLines_panic sep
    (fun lineI => lineGroups f t items gw (indexH g lineI) g 0) .index (lineCountOf items.len g).toNat
    (fun k _ => (hcases k).imp And.right And.right)
  constructor
  · intro hr
    refine h1 fun k _ => ?_
    rcases hcases k with ⟨⟨i, hi, hlt⟩, _⟩ | h
    · exfalso
      rw [onLineH_eq, onLineH, List.mem_filter] at hi
      have := hr i (by simpa using hi.2)
      omega
    · exact h.2
  · intro hr
    obtain ⟨k, hk, hs⟩ := not_fullRows hr
    refine h2 ⟨k / g, ?_, ?_⟩
    · rw [lineCountOf_eq _ _ (by omega) hg, linesFor, Nat.div_lt_iff_lt_mul hg]
      have h1 := Nat.div_add_mod (items.len + g - 1) g
      have h2 := Nat.mod_lt (items.len + g - 1) hg
      rw [Nat.mul_comm]; omega
    · rcases hcases (k / g) with h | ⟨h, _⟩
      · exact h.2
      · exfalso
        have := h k (by
          rw [onLineH_eq, onLineH, List.mem_filter, List.mem_map]
          refine ⟨⟨k % g, List.mem_range.mpr (Nat.mod_lt _ hg), ?_⟩, by simpa using hk⟩
          have := Nat.div_add_mod k g
          rw [Nat.mul_comm]; omega)
        omega

theorem printV_panic (f : Flags) (t : Table σ ι ν ε) (items : Items) (sep : GoString) (g : Nat) (hg : 0 < g)
    (gw : Nat → Nat → Except Panic UInt16) (w : Nat → Nat → UInt16)
    (hw : ∀ c j, c < t.columns.length → j < g → gw c j = .ok (w j c)) :
    (FullRows t items → (printV f t items sep (fun _ => false) g gw).panic = none) ∧
    (¬ FullRows t items → (printV f t items sep (fun _ => false) g gw).panic = some .index) := by
  unfold printV
  have hcases := fun L i => lineGroups_cases f t items gw w (indexV L i) g hw
  obtain ⟨h1, h2⟩ := writeLines_panic sep
    (fun lineI => lineGroups f t items gw (indexV (lineCountOf items.len g).toNat lineI) g 0) .index
    (lineCountOf items.len g).toNat
    (fun k _ => (hcases (lineCountOf items.len g).toNat k).imp And.right And.right)
  constructor
  · intro hr
    refine h1 fun k _ => ?_
    rcases hcases (lineCountOf items.len g).toNat k with ⟨⟨i, hi, hlt⟩, _⟩ | h
    · exfalso
      rw [onLineV_eq, onLineV, List.mem_filter] at hi
      have := hr i (by simpa using hi.2)
      omega
    · exact h.2
  · intro hr
    obtain ⟨k, hk, hs⟩ := not_fullRows hr
    have hL := linesFor_pos items.len g (by omega) hg
    rw [lineCountOf_eq _ _ (by omega) hg] at h2 ⊢
    refine h2 ⟨k % linesFor items.len g, Nat.mod_lt _ hL, ?_⟩
    rcases hcases (linesFor items.len g) (k % linesFor items.len g) with h | ⟨h, _⟩
    · exact h.2
    · exfalso
      have hm := mem_groupV items.len g k hk hg
      have := h k (by
        rw [onLineV_eq, onLineV, List.mem_filter, List.mem_map]
        refine ⟨⟨k / linesFor items.len g, List.mem_range.mpr hm.1, ?_⟩, by simpa using hk⟩
        have := Nat.div_add_mod k (linesFor items.len g)
        rw [Nat.mul_comm]; omega)
      omega

/-! ## Merges with a short row -/

theorem mergeH_short (f : Flags) (t : Table σ ι ν ε) (items : Items) (arg : Int) (sep : GoString)
    (compact : Bool) (fuel : Nat) (run : MergeRun)
    (hp : pitch t sep.length % 65536 ≠ 0) (hrows : ¬ FullRows t items)
    (h : mergeRowsHorizontal f t items arg sep compact (fun _ => false) fuel = some run) :
    run.panic = some .index := by
  unfold mergeRowsHorizontal at h
  simp only [initialGroupCount_ok t arg sep.length hp] at h
  have hpos := plainGroups_pos (clamped arg) sep.length (pitch t sep.length)
  cases compact with
  | false =>
    simp only [Bool.false_eq_true, if_false, Option.some.injEq] at h
    rw [← h]
    exact (printH_panic f t items sep _ hpos _ (wT t) (fun c j hc _ => getWidthTable_ok t c j hc)).2 hrows
  | true =>
    simp only [if_true] at h
    cases fuel with
    | zero => simp [compactCalcH, compactLoopH] at h
    | succ fuel =>
      rw [compactCalcH_short f t items _ _ _ fuel hrows] at h
      simp only [Option.some.injEq] at h
      rw [← h]

theorem mergeV_short (f : Flags) (t : Table σ ι ν ε) (items : Items) (arg : Int) (sep : GoString)
    (compact : Bool) (hp : pitch t sep.length % 65536 ≠ 0) (hrows : ¬ FullRows t items) :
    (mergeRowsVertical f t items arg sep compact (fun _ => false)).panic = some .index := by
  obtain ⟨g0, heq⟩ : ∃ g0, plainGroups (clamped arg) sep.length (pitch t sep.length) = g0 := ⟨_, rfl⟩
  have hg := initialGroupCount_ok t arg sep.length hp
  rw [heq] at hg
  rw [mergeV_eq f t items arg sep compact _ g0 hg]
  have hpos := plainGroups_pos (clamped arg) sep.length (pitch t sep.length)
  rw [heq] at hpos
  have plain := (printV_panic f t items sep _ hpos _ (wT t) (fun c j hc _ => getWidthTable_ok t c j hc)).2 hrows
  cases compact with
  | false => simpa using plain
  | true =>
    simp only [if_true]
    rcases compactCalcV_short f t items (maxWidthOf arg) (u16 sep.length) g0 (by omega) hrows with h | h
    · rw [h]
    · rw [h]; simpa using plain

end GoTable
