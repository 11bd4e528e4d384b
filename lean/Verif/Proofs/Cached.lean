import Verif.Spec.Cached
/-!
# Running a program with and without the cache
-/

namespace GoTable

open Spec

variable {σ ι ν ε α β : Type}

theorem runPure_bind (f : Flags) (p : Prog α) (g : α → Prog β) :
    (p >>= g).runPure f = (g (p.runPure f)).runPure f := by
  show (p.bind g).runPure f = _
  induction p with
  | ret a => rfl
  | measure s k ih => exact ih _

@[simp] theorem runPure_pure (f : Flags) (a : α) : (pure a : Prog α).runPure f = a := rfl

@[simp] theorem runPure_visualWidthP (f : Flags) (s : GoString) :
    (visualWidthP s).runPure f = visualWidth f s := rfl

theorem runPure_ite (f : Flags) (c : Prop) [Decidable c] (a b : Prog α) :
    (if c then a else b).runPure f = if c then a.runPure f else b.runPure f := by
  split <;> rfl

instance : LawfulMonad Prog := LawfulMonad.mk'
  (id_map := fun x => by
    show x.bind _ = x
    induction x with
    | ret a => rfl
    | measure s k ih => simp only [Prog.bind]; congr 1; funext w; exact ih w)
  (pure_bind := fun _ _ => rfl)
  (bind_assoc := fun x g h => by
    show (x.bind g).bind h = x.bind fun a => (g a).bind h
    induction x with
    | ret a => rfl
    | measure s k ih => simp only [Prog.bind]; congr 1; funext w; exact ih w)

/-- A program that may panic, run without the cache. -/
def ProgP.plain (f : Flags) (p : ProgP α) : Except Panic α := Prog.runPure f p.run

theorem plain_bind (f : Flags) (p : ProgP α) (g : α → ProgP β) :
    ProgP.plain f (p >>= g) = ProgP.plain f p >>= fun a => ProgP.plain f (g a) := by
  show Prog.runPure f (Prog.bind p.run (ExceptT.bindCont g)) = _
  have := runPure_bind f p.run (ExceptT.bindCont g)
  rw [show Prog.bind p.run (ExceptT.bindCont g) = (p.run >>= ExceptT.bindCont g) from rfl, this]
  unfold ProgP.plain
  cases Prog.runPure f p.run <;> rfl

theorem plain_pure (f : Flags) (a : α) : ProgP.plain f (pure a) = .ok a := rfl

theorem plain_ofExcept (f : Flags) (x : Except Panic α) : ProgP.plain f (.ofExcept x) = x := rfl

theorem plain_ofProg (f : Flags) (x : Prog α) : ProgP.plain f (.ofProg x) = .ok (x.runPure f) :=
  runPure_bind f x _

theorem plain_ite (f : Flags) (c : Prop) [Decidable c] (a b : ProgP α) :
    ProgP.plain f (if c then a else b) = if c then ProgP.plain f a else ProgP.plain f b := by
  split <;> rfl

theorem plain_mapM (f : Flags) (l : List α) (g : α → ProgP β) :
    ProgP.plain f (l.mapM g) = l.mapM fun a => ProgP.plain f (g a) := by
  induction l with
  | nil => rfl
  | cons a l ih =>
    rw [List.mapM_cons, List.mapM_cons, plain_bind]
    congr 1
    funext b
    rw [plain_bind, ih]
    rfl

/-! ## Alignments -/

theorem alignmentLeftP_pure (f : Flags) (s : GoString) (w : UInt16) :
    (alignmentLeftP s w).runPure f = alignmentLeft f s w := by
  unfold alignmentLeftP alignmentLeft
  rw [runPure_bind, runPure_ite]; rfl

theorem alignmentRightP_pure (f : Flags) (s : GoString) (w : UInt16) :
    (alignmentRightP s w).runPure f = alignmentRight f s w := by
  unfold alignmentRightP alignmentRight
  rw [runPure_bind, runPure_ite]; rfl

theorem alignmentCenterP_pure (f : Flags) (s : GoString) (w : UInt16) :
    (alignmentCenterP s w).runPure f = alignmentCenter f s w := by
  unfold alignmentCenterP alignmentCenter
  rw [runPure_bind, runPure_ite]; rfl

/-! ## Tables -/

theorem formatItemBasicLoopP_pure (f : Flags) (item : ι) (sep : GoString) (cols : List (ColumnP σ ι ν ε)) :
    ∀ (i : Nat) (str : GoString) (st : σ),
    (formatItemBasicLoopP item sep cols i str st).runPure f =
      formatItemBasicLoop item sep (cols.map (plainColumn f)) i str st := by
  induction cols with
  | nil => intros; rfl
  | cons c cols ih =>
    intro i str st
    rw [formatItemBasicLoopP, List.map_cons, formatItemBasicLoop, runPure_bind]
    show _ = match (c.getter.valueString c.name item st).runPure f with
      | (.error e, st) => _
      | (.ok colStr, st) => _
    rcases (c.getter.valueString c.name item st).runPure f with ⟨_ | v, st'⟩
    · rfl
    · exact ih _ _ _

theorem formatItemLoopP_pure (f : Flags) (item : ι) (cols : List (ColumnP σ ι ν ε)) :
    ∀ (done : List GoString) (cw : WidthMap) (st : σ),
    (formatItemLoopP item cols done cw st).runPure f =
      formatItemLoop f item (cols.map (plainColumn f)) done cw st := by
  induction cols with
  | nil => intros; rfl
  | cons c cols ih =>
    intro done cw st
    rw [formatItemLoopP, List.map_cons, formatItemLoop, runPure_bind]
    show _ = match (c.getter.value item st).runPure f with
      | (.error e, st) => _
      | (.ok v, st) => _
    rcases (c.getter.value item st).runPure f with ⟨_ | v, st'⟩
    · rfl
    · dsimp only
      rw [runPure_bind]
      show _ = match (c.getter.format item v st').runPure f with
        | (.error e, st) => _
        | (.ok v, st) => _
      rcases (c.getter.format item v st').runPure f with ⟨_ | x, st''⟩
      · rfl
      · dsimp only
        rw [runPure_bind]
        exact ih _ _ _

theorem formatItemBasicP_pure (f : Flags) (t : TableP σ ι ν ε) (item : ι) (sep : GoString) (st : σ) :
    (t.formatItemBasic item sep st).runPure f = (plainTable f t).formatItemBasic item sep st :=
  formatItemBasicLoopP_pure f item sep t.columns 0 [] st

theorem formatItemP_pure (f : Flags) (t : TableP σ ι ν ε) (item : ι) (st : σ) :
    (plainTable f t).formatItem f item st =
      (((t.formatItem item st).runPure f).1, plainTable f ((t.formatItem item st).runPure f).2.1,
        ((t.formatItem item st).runPure f).2.2) := by
  unfold TableP.formatItem Table.formatItem
  rw [runPure_bind, formatItemLoopP_pure]
  rfl

theorem alignLoopP_pure (f : Flags) (cw : WidthMap) (s : Slice) (cols : List (ColumnP σ ι ν ε)) :
    ∀ (i : Nat) (m : Memory), (alignLoopP cw s cols i m).runPure f =
      alignLoop cw s (cols.map (plainColumn f)) i m := by
  induction cols with
  | nil => intros; rfl
  | cons c cols ih =>
    intro i m
    rw [alignLoopP, List.map_cons, alignLoop]
    cases hal : c.alignment with
    | none => simp only [plainColumn, hal, Option.map_none]; exact ih _ _
    | some al =>
      simp only [plainColumn, hal, Option.map_some]
      cases s.get? m i with
      | none => rfl
      | some x =>
        simp only [runPure_bind]
        cases s.set? m i ((al x (cw c.name)).runPure f) with
        | none => rfl
        | some m' => exact ih _ _

theorem alignFormattedItemP_pure (f : Flags) (t : TableP σ ι ν ε) (m : Memory) (s : Slice) :
    (t.alignFormattedItem m s).runPure f = (plainTable f t).alignFormattedItem m s := by
  unfold TableP.alignFormattedItem Table.alignFormattedItem
  rw [runPure_ite]
  simp only [Table.columnCount, plainTable, List.length_map]
  by_cases h : s.len ≠ t.columns.length
  · rw [if_pos h, if_pos h]; rfl
  · rw [if_neg h, if_neg h, runPure_bind, alignLoopP_pure]
    cases alignLoop t.columnWidth s (t.columns.map (plainColumn f)) 0 m <;> rfl

theorem padColumnHeaderP_pure (f : Flags) (t : TableP σ ι ν ε) (c : ColumnP σ ι ν ε) :
    (t.padColumnHeader c).runPure f = (plainTable f t).padColumnHeader f (plainColumn f c) := by
  unfold TableP.padColumnHeader Table.padColumnHeader
  dsimp only
  rw [runPure_ite, alignmentCenterP_pure]
  rfl

theorem headerLoopP_pure (f : Flags) (t : TableP σ ι ν ε) (sep : GoString) (cols : List (ColumnP σ ι ν ε)) :
    ∀ str, (t.headerLoop sep cols str).runPure f =
      (cols.map (plainColumn f)).foldl
        (fun str col => str ++ ((plainTable f t).padColumnHeader f col ++ sep)) str := by
  induction cols with
  | nil => intros; rfl
  | cons c cols ih =>
    intro str
    rw [TableP.headerLoop, runPure_bind, ih, padColumnHeaderP_pure, List.map_cons, List.foldl_cons]

theorem formatHeaderP_pure (f : Flags) (t : TableP σ ι ν ε) (sep : GoString) :
    (t.formatHeader sep).runPure f = (plainTable f t).formatHeader f sep := by
  unfold TableP.formatHeader Table.formatHeader
  rw [runPure_bind, headerLoopP_pure]
  rfl

theorem tableWidthP (f : Flags) (t : TableP σ ι ν ε) (margin : UInt16) :
    (plainTable f t).tableWidth margin = t.tableWidth margin := by
  unfold TableP.tableWidth Table.tableWidth Table.columnCount
  simp only [plainTable, List.length_map, List.foldl_map]
  rfl

/-! ## Merging -/

theorem initialGroupCountP (f : Flags) (t : TableP σ ι ν ε) (maxWidth margin : UInt16) :
    initialGroupCount (plainTable f t) maxWidth margin = t.initialGroupCount maxWidth margin := by
  unfold initialGroupCount TableP.initialGroupCount
  rw [tableWidthP]

theorem getWidthP (f : Flags) (t : TableP σ ι ν ε) : getWidthTable (plainTable f t) = t.getWidth := by
  funext colI g
  unfold getWidthTable TableP.getWidth plainTable
  simp only [List.getElem?_map]
  cases t.columns[colI]? <;> rfl

theorem renderCellsP_plain (f : Flags) (gw : Nat → Nat → Except Panic UInt16) (g : Nat)
    (item : List GoString) (cols : List (ColumnP σ ι ν ε)) :
    ∀ i, (renderCellsP gw g item cols i).plain f = renderCells f gw g item (cols.map (plainColumn f)) i := by
  induction cols with
  | nil => intros; rfl
  | cons c cols ih =>
    intro i
    rw [renderCellsP, List.map_cons, renderCells]
    simp only [plain_bind, plain_ofExcept, plain_ofProg, ih, plain_pure]
    congr 1; funext str; congr 1; funext w
    simp only [bind, Except.bind, pure, Except.pure]
    unfold plainColumn
    cases c.alignment
    · simp only [Option.map_none, alignmentLeftP_pure]
    · rfl

theorem lineGroupsP_plain (f : Flags) (t : TableP σ ι ν ε) (items : Items)
    (gw : Nat → Nat → Except Panic UInt16) (index : Nat → Nat) (gc : Nat) :
    ∀ n g, gc - g = n → (lineGroupsP t items gw index gc g).plain f =
      lineGroups f (plainTable f t) items gw index gc g := by
  intro n
  induction n with
  | zero =>
    intro g h
    rw [lineGroupsP, lineGroups, plain_ite, if_neg (by omega), if_neg (by omega)]; rfl
  | succ n ih =>
    intro g h
    rw [lineGroupsP, lineGroups, plain_ite, if_pos (show g < gc by omega), if_pos (show g < gc by omega)]
    simp only [plain_ite, plain_bind, renderCellsP_plain, ih (g + 1) (by omega), plain_pure]
    rfl

theorem writeLinesP_pure (f : Flags) (sep : GoString) (line : Nat → ProgP (List GoString))
    (fails : Nat → Bool) (lc : Nat) :
    ∀ n i, lc - i = n → (writeLinesP sep line fails lc i).runPure f =
      writeLines sep (fun i => (line i).plain f) fails lc i := by
  intro n
  induction n with
  | zero =>
    intro i h
    rw [writeLinesP, writeLines, runPure_ite, if_neg (by omega), if_neg (by omega)]; rfl
  | succ n ih =>
    intro i h
    rw [writeLinesP, writeLines, runPure_ite, if_pos (by omega), if_pos (by omega), runPure_bind]
    show _ = match Prog.runPure f (line i).run with
      | .error p => _
      | .ok parts => _
    cases Prog.runPure f (line i).run with
    | error p => rfl
    | ok parts =>
      simp only [runPure_ite, runPure_bind, ih (i + 1) (by omega)]
      rfl

theorem printHP_pure (f : Flags) (t : TableP σ ι ν ε) (items : Items) (sep : GoString)
    (fails : Nat → Bool) (gc : Nat) (gw : Nat → Nat → Except Panic UInt16) :
    (printHP t items sep fails gc gw).runPure f = printH f (plainTable f t) items sep fails gc gw := by
  unfold printHP printH
  dsimp only
  rw [writeLinesP_pure f _ _ _ _ _ _ rfl]
  congr 1; funext i
  exact lineGroupsP_plain f t items gw _ gc _ _ rfl

theorem printVP_pure (f : Flags) (t : TableP σ ι ν ε) (items : Items) (sep : GoString)
    (fails : Nat → Bool) (gc : Nat) (gw : Nat → Nat → Except Panic UInt16) :
    (printVP t items sep fails gc gw).runPure f = printV f (plainTable f t) items sep fails gc gw := by
  unfold printVP printV
  dsimp only
  rw [writeLinesP_pure f _ _ _ _ _ _ rfl]
  congr 1; funext i
  exact lineGroupsP_plain f t items gw _ gc _ _ rfl

theorem maxCellWidthHP_plain (f : Flags) (items : Items) (colI gc : Nat) :
    ∀ n i mw, items.len - i = n → (maxCellWidthHP items colI gc i mw).plain f =
      maxCellWidthH f items colI gc i mw := by
  intro n
  induction n using Nat.strongRecOn with
  | ind n ih =>
    intro i mw h
    rw [maxCellWidthHP, maxCellWidthH]
    split
    · rename_i hc
      rw [plain_bind, plain_ofExcept]
      cases cellAt (items.get i) colI with
      | error p => rfl
      | ok s =>
        show ProgP.plain f _ = _
        rw [plain_bind, plain_ofProg]
        exact ih _ (by omega) _ _ rfl
    · rfl

theorem maxCellWidthVP_plain (f : Flags) (items : Items) (colI e : Nat) :
    ∀ n i mw, e - i = n → (maxCellWidthVP items colI e i mw).plain f =
      maxCellWidthV f items colI e i mw := by
  intro n
  induction n with
  | zero =>
    intro i mw h
    rw [maxCellWidthVP, maxCellWidthV, plain_ite, if_neg (by omega), if_neg (by omega)]; rfl
  | succ n ih =>
    intro i mw h
    rw [maxCellWidthVP, maxCellWidthV, plain_ite, if_pos (by omega), if_pos (by omega),
      plain_bind, plain_ofExcept]
    cases cellAt (items.get i) colI with
    | error p => rfl
    | ok s =>
      show ProgP.plain f _ = _
      rw [plain_bind, plain_ofProg]
      exact ih _ _ (by omega)

theorem mergedRowsWidthHP_plain (f : Flags) (t : TableP σ ι ν ε) (items : Items) (gc : Nat) :
    (mergedRowsWidthHP t items gc).plain f = mergedRowsWidthH f (plainTable f t) items gc := by
  unfold mergedRowsWidthHP mergedRowsWidthH Table.columnCount
  simp only [plain_bind, plain_mapM, maxCellWidthHP_plain f items _ gc _ _ _ rfl, plain_pure, plainTable,
    List.length_map]
  rfl

theorem mergedRowsWidthVP_plain (f : Flags) (t : TableP σ ι ν ε) (items : Items) (gc : Nat) :
    (mergedRowsWidthVP t items gc).plain f = mergedRowsWidthV f (plainTable f t) items gc := by
  unfold mergedRowsWidthVP mergedRowsWidthV Table.columnCount
  simp only [plain_ite, plain_bind, plain_mapM, maxCellWidthVP_plain f items _ _ _ _ _ rfl, plain_pure,
    plainTable, List.length_map, plain_ofExcept]
  rfl

theorem compactLoopHP_pure (f : Flags) (t : TableP σ ι ν ε) (items : Items) (mw margin : UInt16)
    (init : Nat) : ∀ fuel extra cw, (compactLoopHP t items mw margin init fuel extra cw).runPure f =
      compactLoopH f (plainTable f t) items mw margin init fuel extra cw := by
  intro fuel
  induction fuel with
  | zero => intros; rfl
  | succ fuel ih =>
    intro extra cw
    rw [compactLoopHP, compactLoopH]
    rw [runPure_bind, ← mergedRowsWidthHP_plain]
    show _ = match Prog.runPure f (mergedRowsWidthHP t items (init + extra + 1)).run with
      | .error p => _
      | .ok cellWidthNew => _
    cases Prog.runPure f (mergedRowsWidthHP t items (init + extra + 1)).run with
    | error p => rfl
    | ok new =>
      simp only [runPure_ite, ih, Table.columnCount, plainTable, List.length_map]
      rfl

theorem compactLoopVP_plain (f : Flags) (t : TableP σ ι ν ε) (items : Items) (mw margin : UInt16)
    (init : Nat) (hi : 1 ≤ init) : ∀ rounds extra cw, items.len < rounds + extra → extra ≤ items.len →
    (compactLoopVP t items mw margin init rounds extra cw).plain f =
      compactLoopV f (plainTable f t) items mw margin init hi extra cw := by
  intro rounds
  induction rounds with
  | zero => intro extra cw h1 h2; omega
  | succ rounds ih =>
    intro extra cw h1 h2
    rw [compactLoopVP, compactLoopV]
    rw [plain_bind, mergedRowsWidthVP_plain]
    split
    · rename_i p hm; rw [hm]; rfl
    · rename_i hm; rw [hm]; rfl
    · rename_i new hm
      have hle := mergedRowsWidthV_some_le f _ items _ _ (by omega) hm
      rw [hm]
      show ProgP.plain f (ite _ _ _) = _
      rw [plain_ite, ih _ _ (by omega) (by omega)]
      simp only [Table.columnCount, plainTable, List.length_map]
      rfl

theorem mergeRowsHorizontalP_pure (f : Flags) (t : TableP σ ι ν ε) (items : Items) (maxWidthArg : Int)
    (sep : GoString) (compact : Bool) (fails : Nat → Bool) (fuel : Nat) :
    (t.mergeRowsHorizontal items maxWidthArg sep compact fails fuel).runPure f =
      mergeRowsHorizontal f (plainTable f t) items maxWidthArg sep compact fails fuel := by
  unfold TableP.mergeRowsHorizontal mergeRowsHorizontal compactCalcH
  dsimp only
  rw [initialGroupCountP, getWidthP]
  cases t.initialGroupCount (maxWidthOf maxWidthArg) (u16 sep.length) with
  | error p => rfl
  | ok gc =>
    simp only [runPure_ite, runPure_bind, compactLoopHP_pure, printHP_pure]
    cases compact
    · simp only [Bool.false_eq_true, if_false]; rfl
    · simp only [if_true]
      rcases compactLoopH f (plainTable f t) items (maxWidthOf maxWidthArg) (u16 sep.length) gc fuel 0 []
        with _ | ⟨p | ⟨extra, cw⟩⟩
      · rfl
      · rfl
      · simp only [runPure_ite, runPure_bind, printHP_pure, Table.columnCount, plainTable, List.length_map]
        rfl

theorem mergeRowsVerticalP_pure (f : Flags) (t : TableP σ ι ν ε) (items : Items) (maxWidthArg : Int)
    (sep : GoString) (compact : Bool) (fails : Nat → Bool) :
    (t.mergeRowsVertical items maxWidthArg sep compact fails).runPure f =
      mergeRowsVertical f (plainTable f t) items maxWidthArg sep compact fails := by
  unfold TableP.mergeRowsVertical mergeRowsVertical compactCalcV
  dsimp only
  rw [getWidthP]
  cases hp : t.initialGroupCount (maxWidthOf maxWidthArg) (u16 sep.length) with
  | error p =>
    simp only [runPure_pure]
    split
    · rename_i q hq; rw [initialGroupCountP, hp] at hq; cases hq; rfl
    · rename_i q hq; rw [initialGroupCountP, hp] at hq; cases hq
  | ok gc =>
    cases compact
    · simp only [Bool.false_eq_true, if_false]
      split
      · rename_i q hq; rw [initialGroupCountP, hp] at hq; cases hq
      · rename_i q hq
        rw [initialGroupCountP, hp] at hq
        cases hq
        exact printVP_pure f t items sep fails _ _
    · simp only [if_true]
      split
      · rename_i q hq; rw [initialGroupCountP, hp] at hq; cases hq
      · rename_i q hq
        have hq' := hq
        rw [initialGroupCountP, hp] at hq'
        cases hq'
        rw [← compactLoopVP_plain f t items (maxWidthOf maxWidthArg) (u16 sep.length) gc
          (initialGroupCount_pos (plainTable f t) _ _ gc hq) (items.len + 1) 0 []
          (by omega) (by omega), runPure_bind]
        unfold ProgP.plain
        rcases Prog.runPure f (compactLoopVP t items (maxWidthOf maxWidthArg) (u16 sep.length) gc
          (items.len + 1) 0 []).run with p | ⟨extra, cw⟩
        · rfl
        · simp only [runPure_ite, printVP_pure, Table.columnCount, plainTable, List.length_map]

end GoTable
