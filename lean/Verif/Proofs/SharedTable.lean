import Verif.Spec.SharedTable
import Verif.Proofs.Layout
/-!
# Programs on the widths of a table
-/

namespace GoTable

open Spec

variable {σ ι ν ε α β : Type}

theorem acts_run_bind (p : Acts α) (g : α → Acts β) (cw : WidthMap) :
    (p >>= g).run cw = (g (p.run cw).1).run (p.run cw).2 := by
  show (p.bind g).run cw = _
  induction p generalizing cw with
  | ret a => rfl
  | read n k ih => exact ih _ cw
  | write n w k ih => exact ih _

theorem quiet_run (p : Acts α) (cw : WidthMap) (h : WritesNothing p cw) : (p.run cw).2 = cw := by
  induction p with
  | ret a => rfl
  | read n k ih => exact ih _ h
  | write n w k ih => exact absurd h id

theorem quiet_bind (p : Acts α) (g : α → Acts β) (cw : WidthMap) :
    WritesNothing (p >>= g) cw ↔ WritesNothing p cw ∧ WritesNothing (g (p.run cw).1) cw := by
  show WritesNothing (p.bind g) cw ↔ _
  induction p with
  | ret a => exact ⟨fun h => ⟨trivial, h⟩, fun h => h.2⟩
  | read n k ih => exact ih _
  | write n w k ih => exact ⟨fun h => absurd h id, fun h => absurd h.1 id⟩

theorem answers_pure (a : α) (cw : WidthMap) : Answers (pure a : Acts α) cw a := ⟨trivial, rfl⟩

theorem answers_width (n : GoString) (cw : WidthMap) : Answers (widthA n) cw (cw n) := ⟨trivial, rfl⟩

theorem answers_bind {p : Acts α} {g : α → Acts β} {cw : WidthMap} {a : α} {b : β} (hp : Answers p cw a)
    (hg : Answers (g a) cw b) : Answers (p >>= g) cw b := by
  obtain ⟨h1, rfl⟩ := hp
  refine ⟨(quiet_bind p g cw).mpr ⟨h1, hg.1⟩, ?_⟩
  rw [acts_run_bind, quiet_run p cw h1]
  exact hg.2

/-! ## Calls that read -/

theorem answers_alignLoop (cw : WidthMap) (s : Slice) (cols : List (Column σ ι ν ε)) :
    ∀ (i : Nat) (m : Memory), Answers (alignLoopA s cols i m) cw (alignLoop cw s cols i m) := by
  induction cols with
  | nil => intro i m; exact answers_pure _ _
  | cons c cols ih =>
    intro i m
    rw [alignLoopA, alignLoop]
    cases c.alignment with
    | none => exact ih _ _
    | some al =>
      dsimp only
      cases s.get? m i with
      | none => exact answers_pure _ _
      | some x =>
        refine answers_bind (answers_width _ _) ?_
        dsimp only
        cases s.set? m i (al x (cw c.name)) with
        | none => exact answers_pure _ _
        | some m => exact ih _ _

theorem answers_align (t : Table σ ι ν ε) (m : Memory) (s : Slice) :
    Answers (alignFormattedItemA t.columns m s) t.columnWidth (t.alignFormattedItem m s) := by
  unfold alignFormattedItemA Table.alignFormattedItem Table.columnCount
  split
  · exact answers_pure _ _
  · refine answers_bind (answers_alignLoop t.columnWidth s t.columns 0 m) ?_
    cases alignLoop t.columnWidth s t.columns 0 m <;> exact answers_pure _ _

theorem answers_pad (f : Flags) (t : Table σ ι ν ε) (c : Column σ ι ν ε) :
    Answers (padColumnHeaderA f c) t.columnWidth (t.padColumnHeader f c) := by
  unfold padColumnHeaderA Table.padColumnHeader Table.width
  refine answers_bind (answers_width _ _) ?_
  dsimp only
  split <;> exact answers_pure _ _

theorem answers_headerLoop (f : Flags) (t : Table σ ι ν ε) (sep : GoString) (cols : List (Column σ ι ν ε)) :
    ∀ str, Answers (headerLoopA f sep cols str) t.columnWidth
      (cols.foldl (fun str col => str ++ (t.padColumnHeader f col ++ sep)) str) := by
  induction cols with
  | nil => intro str; exact answers_pure _ _
  | cons c cols ih => intro str; exact answers_bind (answers_pad f t c) (ih _)

theorem answers_header (f : Flags) (t : Table σ ι ν ε) (sep : GoString) :
    Answers (formatHeaderA f t.columns sep) t.columnWidth (t.formatHeader f sep) :=
  answers_bind (answers_headerLoop f t sep t.columns []) (answers_pure _ _)

theorem answers_tableWidthLoop (t : Table σ ι ν ε) (cols : List (Column σ ι ν ε)) :
    ∀ w, Answers (tableWidthLoopA cols w) t.columnWidth (cols.foldl (fun width col => width + t.width col.name) w) := by
  induction cols with
  | nil => intro w; exact answers_pure _ _
  | cons c cols ih => intro w; exact answers_bind (answers_width _ _) (ih _)

theorem answers_tableWidth (t : Table σ ι ν ε) (margin : UInt16) :
    Answers (tableWidthA t.columns margin) t.columnWidth (t.tableWidth margin) :=
  answers_tableWidthLoop t t.columns _

theorem answers_initialGroupCount (t : Table σ ι ν ε) (maxWidth margin : UInt16) :
    Answers (initialGroupCountA t.columns maxWidth margin) t.columnWidth (initialGroupCount t maxWidth margin) := by
  unfold initialGroupCountA initialGroupCount
  refine answers_bind (answers_tableWidth t margin) ?_
  dsimp only
  split <;> exact answers_pure _ _

theorem answers_getWidth (t : Table σ ι ν ε) (colI groupI : Nat) :
    Answers (getWidthA t.columns colI groupI) t.columnWidth (getWidthTable t colI groupI) := by
  unfold getWidthA getWidthTable
  cases t.columns[colI]? with
  | none => exact answers_pure _ _
  | some c => exact answers_bind (answers_width _ _) (answers_pure _ _)

theorem answers_renderCells (f : Flags) (cw : WidthMap) {gA : Nat → Nat → Acts (Except Panic UInt16)}
    {g : Nat → Nat → Except Panic UInt16} (hg : ∀ i j, Answers (gA i j) cw (g i j)) (groupI : Nat) (item : List GoString)
    (cols : List (Column σ ι ν ε)) : ∀ colI,
      Answers (renderCellsA f gA groupI item cols colI) cw (renderCells f g groupI item cols colI) := by
  induction cols with
  | nil => intro colI; exact answers_pure _ _
  | cons c cols ih =>
    intro colI
    rw [renderCellsA, renderCells]
    cases cellAt item colI with
    | error p => exact answers_pure _ _
    | ok str =>
      refine answers_bind (hg colI groupI) ?_
      dsimp only
      cases g colI groupI with
      | error p => exact answers_pure _ _
      | ok w =>
        refine answers_bind (ih (colI + 1)) ?_
        cases renderCells f g groupI item cols (colI + 1) with
        | error p => exact answers_pure _ _
        | ok rest => exact answers_pure _ _

theorem answers_lineGroups (f : Flags) (t : Table σ ι ν ε) (cw : WidthMap) (items : Items)
    {gA : Nat → Nat → Acts (Except Panic UInt16)} {g : Nat → Nat → Except Panic UInt16}
    (hg : ∀ i j, Answers (gA i j) cw (g i j)) (index : Nat → Nat) (groupCount : Nat) :
    ∀ n groupI, groupCount - groupI = n → Answers (lineGroupsA f t.columns items gA index groupCount groupI) cw
      (lineGroups f t items g index groupCount groupI) := by
  intro n
  induction n with
  | zero =>
    intro i hi
    rw [lineGroupsA, lineGroups, if_neg (by omega), if_neg (by omega)]
    exact answers_pure _ _
  | succ n ih =>
    intro i hi
    rw [lineGroupsA, lineGroups]
    simp only [if_pos (show i < groupCount by omega)]
    by_cases he : index i ≥ items.len
    · rw [if_pos he, if_pos he]
      exact answers_pure _ _
    · rw [if_neg he, if_neg he]
      refine answers_bind (answers_renderCells f cw hg i _ _ 0) ?_
      cases renderCells f g i (items.get (index i)) t.columns 0 with
      | error p => exact answers_pure _ _
      | ok cell =>
        refine answers_bind (ih (i + 1) (by omega)) ?_
        cases lineGroups f t items g index groupCount (i + 1) with
        | error p => exact answers_pure _ _
        | ok rest => exact answers_pure _ _

theorem answers_writeLines (cw : WidthMap) (sep : GoString) {lA : Nat → Acts (Except Panic (List GoString))}
    {l : Nat → Except Panic (List GoString)} (hl : ∀ i, Answers (lA i) cw (l i)) (fails : Nat → Bool) (lineCount : Nat) :
    ∀ n i, lineCount - i = n → Answers (writeLinesA sep lA fails lineCount i) cw (writeLines sep l fails lineCount i) := by
  intro n
  induction n with
  | zero =>
    intro i hi
    rw [writeLinesA, writeLines, if_neg (by omega), if_neg (by omega)]
    exact answers_pure _ _
  | succ n ih =>
    intro i hi
    rw [writeLinesA, writeLines, if_pos (by omega), if_pos (by omega)]
    refine answers_bind (hl i) ?_
    cases l i with
    | error p => exact answers_pure _ _
    | ok parts =>
      dsimp only
      split
      · exact answers_pure _ _
      · exact answers_bind (ih (i + 1) (by omega)) (answers_pure _ _)

theorem answers_printH (f : Flags) (t : Table σ ι ν ε) (cw : WidthMap) (items : Items) (sep : GoString) (fails : Nat → Bool)
    (groupCount : Nat) {gA : Nat → Nat → Acts (Except Panic UInt16)} {g : Nat → Nat → Except Panic UInt16}
    (hg : ∀ i j, Answers (gA i j) cw (g i j)) :
    Answers (printHA f t.columns items sep fails groupCount gA) cw (printH f t items sep fails groupCount g) :=
  answers_writeLines cw sep (fun _ => answers_lineGroups f t cw items hg _ _ _ 0 rfl) fails _ _ 0 rfl

theorem answers_printV (f : Flags) (t : Table σ ι ν ε) (cw : WidthMap) (items : Items) (sep : GoString) (fails : Nat → Bool)
    (groupCount : Nat) {gA : Nat → Nat → Acts (Except Panic UInt16)} {g : Nat → Nat → Except Panic UInt16}
    (hg : ∀ i j, Answers (gA i j) cw (g i j)) :
    Answers (printVA f t.columns items sep fails groupCount gA) cw (printV f t items sep fails groupCount g) :=
  answers_writeLines cw sep (fun _ => answers_lineGroups f t cw items hg _ _ _ 0 rfl) fails _ _ 0 rfl

/-! ## The compact searches do not use the widths -/

theorem compactLoopH_widths (f : Flags) (t u : Table σ ι ν ε) (h : t.columns = u.columns) (items : Items)
    (maxWidth margin : UInt16) (g : Nat) : ∀ fuel extra cw,
    compactLoopH f t items maxWidth margin g fuel extra cw = compactLoopH f u items maxWidth margin g fuel extra cw := by
  have hc : t.columnCount = u.columnCount := by unfold Table.columnCount; rw [h]
  have hm : ∀ n, mergedRowsWidthH f t items n = mergedRowsWidthH f u items n := fun n => by
    unfold mergedRowsWidthH; rw [hc]
  intro fuel
  induction fuel with
  | zero => intro _ _; rfl
  | succ fuel ih =>
    intro extra cw
    rw [compactLoopH, compactLoopH, hm]
    cases mergedRowsWidthH f u items (g + extra + 1) with
    | error p => rfl
    | ok x => dsimp only; rw [hc, ih]

theorem compactLoopV_widths (f : Flags) (t u : Table σ ι ν ε) (h : t.columns = u.columns) (items : Items)
    (maxWidth margin : UInt16) (g : Nat) (hg : 1 ≤ g) : ∀ n extra cw, items.len - extra ≤ n →
    compactLoopV f t items maxWidth margin g hg extra cw = compactLoopV f u items maxWidth margin g hg extra cw := by
  have hc : t.columnCount = u.columnCount := by unfold Table.columnCount; rw [h]
  have hm : ∀ n, mergedRowsWidthV f t items n = mergedRowsWidthV f u items n := fun n => by
    unfold mergedRowsWidthV; rw [hc]
  intro n
  induction n with
  | zero =>
    intro e cw hn
    cases hr : mergedRowsWidthV f u items (g + e + 1) with
    | error p => rw [compactLoopV_of_error hg hr, compactLoopV_of_error hg ((hm _).trans hr)]
    | ok o =>
      cases o with
      | none => rw [compactLoopV_of_none hg hr, compactLoopV_of_none hg ((hm _).trans hr)]
      | some x =>
        have := mergedRowsWidthV_some_le f u items _ _ (by omega) hr
        omega
  | succ n ih =>
    intro e cw hn
    cases hr : mergedRowsWidthV f u items (g + e + 1) with
    | error p => rw [compactLoopV_of_error hg hr, compactLoopV_of_error hg ((hm _).trans hr)]
    | ok o =>
      cases o with
      | none => rw [compactLoopV_of_none hg hr, compactLoopV_of_none hg ((hm _).trans hr)]
      | some x =>
        have := mergedRowsWidthV_some_le f u items _ _ (by omega) hr
        rw [compactLoopV_of_some hg hr, compactLoopV_of_some hg ((hm _).trans hr), hc, ih (e + 1) x (by omega)]

/-! ## Merges -/

theorem answers_horizontal (f : Flags) (t : Table σ ι ν ε) (items : Items) (maxWidth : Int) (sep : GoString) (compact : Bool)
    (fails : Nat → Bool) (fuel : Nat) :
    Answers (mergeRowsHorizontalA f t.columns items maxWidth sep compact fails fuel) t.columnWidth
      (mergeRowsHorizontal f t items maxWidth sep compact fails fuel) := by
  unfold mergeRowsHorizontalA mergeRowsHorizontal
  dsimp only
  refine answers_bind (answers_initialGroupCount t _ _) ?_
  cases initialGroupCount t (maxWidthOf maxWidth) (u16 sep.length) with
  | error p => exact answers_pure _ _
  | ok g =>
    have h1 : Answers (do return some (← printHA f t.columns items sep fails g (getWidthA t.columns))) t.columnWidth
        (some (printH f t items sep fails g (getWidthTable t))) :=
      answers_bind (answers_printH f t t.columnWidth items sep fails g (answers_getWidth t)) (answers_pure _ _)
    cases compact with
    | false => exact h1
    | true =>
      have hc : compactCalcH f { columns := t.columns, columnWidth := fun _ => 0 } items (maxWidthOf maxWidth)
          (u16 sep.length) g fuel = compactCalcH f t items (maxWidthOf maxWidth) (u16 sep.length) g fuel :=
        compactLoopH_widths f { columns := t.columns, columnWidth := fun _ => 0 } t rfl items _ _ g fuel 0 []
      simp only [hc, if_true]
      cases compactCalcH f t items (maxWidthOf maxWidth) (u16 sep.length) g fuel with
      | none => exact answers_pure _ _
      | some r =>
        cases r with
        | error p => exact answers_pure _ _
        | ok x =>
          obtain ⟨extra, cw⟩ := x
          dsimp only
          by_cases he : extra > 0
          · simp only [if_pos he]
            exact answers_bind (answers_printH f t t.columnWidth items sep fails _ fun i j => answers_pure _ _)
              (answers_pure _ _)
          · simp only [if_neg he]
            exact h1

theorem answers_vertical (f : Flags) (t : Table σ ι ν ε) (items : Items) (maxWidth : Int) (sep : GoString) (compact : Bool)
    (fails : Nat → Bool) :
    Answers (mergeRowsVerticalA f t.columns items maxWidth sep compact fails) t.columnWidth
      (mergeRowsVertical f t items maxWidth sep compact fails) := by
  have hi := answers_initialGroupCount t (maxWidthOf maxWidth) (u16 sep.length)
  unfold mergeRowsVertical
  dsimp only
  split
  · rename_i p hp
    rw [hp] at hi
    exact answers_bind hi (answers_pure _ _)
  · rename_i g hg
    rw [hg] at hi
    refine answers_bind hi ?_
    have hpos := initialGroupCount_pos t _ _ _ hg
    have h1 : Answers (printVA f t.columns items sep fails g (getWidthA t.columns)) t.columnWidth
        (printV f t items sep fails g (getWidthTable t)) :=
      answers_printV f t t.columnWidth items sep fails g (answers_getWidth t)
    cases compact with
    | false => exact h1
    | true =>
      have hc : compactCalcV f { columns := t.columns, columnWidth := fun _ => 0 } items (maxWidthOf maxWidth)
          (u16 sep.length) g hpos = compactCalcV f t items (maxWidthOf maxWidth) (u16 sep.length) g hpos :=
        compactLoopV_widths f { columns := t.columns, columnWidth := fun _ => 0 } t rfl items _ _ g hpos _ 0 [] (Nat.le_refl _)
      simp only [hc, if_true, dif_pos hpos]
      cases compactCalcV f t items (maxWidthOf maxWidth) (u16 sep.length) g hpos with
      | error p => exact answers_pure _ _
      | ok x =>
        obtain ⟨extra, cw⟩ := x
        dsimp only
        by_cases he : extra > 0
        · simp only [if_pos he]
          exact answers_printV f t t.columnWidth items sep fails _ fun i j => answers_pure _ _
        · simp only [if_neg he]
          exact h1

/-! ## Calls that record widths -/

theorem run_record (n : GoString) (w : UInt16) (cw : WidthMap) :
    ((recordA n w).run cw).2 = if w > cw n then cw.set n w else cw := by
  unfold recordA
  rw [acts_run_bind]
  show (Acts.run (if w > cw n then _ else _) cw).2 = _
  split <;> rfl

theorem quiet_record (n : GoString) (w : UInt16) (cw : WidthMap) : WritesNothing (recordA n w) cw ↔ w ≤ cw n := by
  unfold recordA
  rw [quiet_bind]
  show True ∧ WritesNothing (if w > cw n then _ else _) cw ↔ _
  by_cases h : w > cw n
  · rw [if_pos h]
    exact ⟨fun x => absurd x.2 id, fun x => absurd h (UInt16.not_lt.mpr x)⟩
  · rw [if_neg h]
    exact ⟨fun _ => UInt16.not_lt.mp h, fun _ => ⟨trivial, trivial⟩⟩

theorem run_updateWidth (entries : List (GoString × UInt16)) :
    ∀ cw, ((updateWidthA entries).run cw).2 = updateWidth cw entries := by
  induction entries with
  | nil => intro cw; rfl
  | cons e entries ih =>
    intro cw
    rw [updateWidthA, acts_run_bind, run_record, ih]
    rfl

theorem quiet_updateWidth (entries : List (GoString × UInt16)) (cw : WidthMap) :
    WritesNothing (updateWidthA entries) cw ↔ ∀ e ∈ entries, e.2 ≤ cw e.1 := by
  induction entries with
  | nil => exact ⟨fun _ => by simp, fun _ => trivial⟩
  | cons e entries ih => rw [updateWidthA, quiet_bind, quiet_record, ih, List.forall_mem_cons]

theorem run_formatItemLoop (f : Flags) (item : ι) (cols : List (Column σ ι ν ε)) :
    ∀ (done : List GoString) (st : σ) (cw : WidthMap),
    let r := (formatItemLoopA f item cols done st).run cw
    (r.1.1, r.2, r.1.2) = formatItemLoop f item cols done cw st := by
  induction cols with
  | nil => intros; rfl
  | cons c cols ih =>
    intro done st cw
    rw [formatItemLoopA, formatItemLoop]
    rcases c.getter.value item st with ⟨_ | v, st'⟩
    · rfl
    · dsimp only
      rcases c.getter.format item v st' with ⟨_ | x, st''⟩
      · rfl
      · dsimp only
        rw [acts_run_bind, run_record]
        exact ih _ _ _

theorem formatItemLoop_grows (f : Flags) (item : ι) (cols : List (Column σ ι ν ε)) :
    ∀ (done : List GoString) (st : σ) (cw : WidthMap) (n : GoString),
    cw n ≤ (formatItemLoop f item cols done cw st).2.1 n := by
  induction cols with
  | nil => intros; exact UInt16.le_refl _
  | cons c cols ih =>
    intro done st cw n
    rw [formatItemLoop]
    rcases c.getter.value item st with ⟨_ | v, st'⟩
    · exact UInt16.le_refl _
    · dsimp only
      rcases c.getter.format item v st' with ⟨_ | x, st''⟩
      · exact UInt16.le_refl _
      · refine UInt16.le_trans ?_ (ih _ _ _ n)
        split
        · rename_i hw
          unfold WidthMap.set
          split
          · rename_i hn; rw [hn]; exact UInt16.le_of_lt hw
          · exact UInt16.le_refl _
        · exact UInt16.le_refl _

theorem quiet_formatItemLoop (f : Flags) (item : ι) (cols : List (Column σ ι ν ε)) (cw : WidthMap) :
    ∀ (done : List GoString) (st : σ), WritesNothing (formatItemLoopA f item cols done st) cw ↔
      (formatItemLoop f item cols done cw st).2.1 = cw := by
  induction cols with
  | nil => intros; exact ⟨fun _ => rfl, fun _ => trivial⟩
  | cons c cols ih =>
    intro done st
    rw [formatItemLoopA, formatItemLoop]
    rcases c.getter.value item st with ⟨_ | v, st'⟩
    · exact ⟨fun _ => rfl, fun _ => trivial⟩
    · dsimp only
      rcases c.getter.format item v st' with ⟨_ | x, st''⟩
      · exact ⟨fun _ => rfl, fun _ => trivial⟩
      · dsimp only
        rw [quiet_bind, quiet_record]
        by_cases h : visualWidth f x > cw c.name
        · refine ⟨fun y => absurd h (UInt16.not_lt.mpr y.1), fun y => ?_⟩
          have := formatItemLoop_grows f item cols (done ++ [x]) st'' (cw.set c.name (visualWidth f x)) c.name
          rw [if_pos h] at y
          rw [y] at this
          exact absurd h (UInt16.not_lt.mpr (by simpa [WidthMap.set] using this))
        · rw [if_neg h]
          exact ⟨fun y => (ih _ _).mp y.2, fun y => ⟨UInt16.not_lt.mp h, (ih _ _).mpr y⟩⟩

/-! ## Goroutines -/

theorem reachesT_trans {a b c : SharedT α} (h1 : SharedT.Reaches a b) (h2 : SharedT.Reaches b c) : SharedT.Reaches a c := by
  induction h2 with
  | refl => exact h1
  | step _ hs ih => exact .step ih hs

theorem setThread_self (st : SharedT α) (i : Nat) (p : Acts α) : (st.setThread i p).threads i = p := by
  simp [SharedT.setThread]

theorem setThread_other (st : SharedT α) (i j : Nat) (p : Acts α) (h : j ≠ i) :
    (st.setThread i p).threads j = st.threads j := by
  simp [SharedT.setThread, h]

theorem setThread_twice (st : SharedT α) (i : Nat) (p q : Acts α) :
    (st.setThread i p).setThread i q = st.setThread i q := by
  unfold SharedT.setThread
  congr 1
  funext j
  dsimp only
  split <;> rfl

/-- While nothing is written, every goroutine stays quiet and on its way to the same result. -/
theorem quiet_reaches {work : Nat → Acts α} {cw : WidthMap} (h : ∀ i, WritesNothing (work i) cw) {st : SharedT α}
    (hr : SharedT.Reaches ⟨cw, work⟩ st) :
    st.widths = cw ∧ ∀ i, WritesNothing (st.threads i) cw ∧ (st.threads i).run cw = (work i).run cw := by
  generalize hs : (⟨cw, work⟩ : SharedT α) = s0 at hr
  induction hr with
  | refl => subst hs; exact ⟨rfl, fun i => ⟨h i, rfl⟩⟩
  | step _ hst ih =>
    obtain ⟨h1, h2⟩ := ih
    cases hst with
    | read i n k ht =>
      refine ⟨h1, fun j => ?_⟩
      by_cases hj : j = i
      · subst hj
        rw [setThread_self, h1]
        have := h2 j
        rw [ht] at this
        exact this
      · rw [setThread_other _ _ _ _ hj]
        exact h2 j
    | write i n w k ht =>
      have := (h2 i).1
      rw [ht] at this
      exact absurd this id

/-- A goroutine that is not quiet can be run up to its first writing, the others waiting. -/
theorem loud_reaches (p : Acts α) (cw : WidthMap) (hp : ¬ WritesNothing p cw) (i : Nat) :
    ∀ st : SharedT α, st.widths = cw → st.threads i = p →
      ∃ n w k, SharedT.Reaches st (st.setThread i (.write n w k)) := by
  induction p with
  | ret a => exact absurd trivial hp
  | write n w k ih =>
    intro st _ ht
    refine ⟨n, w, k, ?_⟩
    have : st.setThread i (.write n w k) = st := by
      rw [← ht]
      unfold SharedT.setThread
      cases st
      congr 1
      funext j
      dsimp only
      split
      · rename_i e; rw [e]
      · rfl
    rw [this]
    exact .refl _
  | read n k ih =>
    intro st hw ht
    obtain ⟨n', w', k', hr⟩ := ih (cw n) hp (st.setThread i (k (st.widths n))) hw (by rw [setThread_self, hw])
    rw [setThread_twice] at hr
    exact ⟨n', w', k', reachesT_trans (.step (.refl _) (.read st i n k ht)) hr⟩

end GoTable
