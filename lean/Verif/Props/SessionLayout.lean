import Verif.Props.Layout
import Verif.Props.Session
/-!
# Properties: the layout of a whole session

C110: format all items, print the header, merge the rows. Everything but the texts of the cells depends on how wide they are.
-/

namespace GoTable
open Spec

variable {σ ι ν ε : Type}

theorem same_itemsOf {f : Flags} {rows rows' : List (List GoString)} (h : EquallyWide f rows rows') :
    SameWidths f (itemsOf rows) (itemsOf rows') := by
  have hl : rows.length = rows'.length := by simpa using congrArg List.length h
  refine ⟨hl, fun i hi => ?_⟩
  have h1 := itemsOf_get rows i hi
  have h2 := itemsOf_get rows' i (hl ▸ hi)
  have h3 : (rows.map (·.map (visualWidth f)))[i]? = (rows'.map (·.map (visualWidth f)))[i]? := by rw [h]
  rw [List.getElem?_map, List.getElem?_map, h1, h2] at h3
  exact Option.some.inj h3

theorem formatItem_ok {f : Flags} {t : Table σ ι ν ε} {item : ι} {st : σ} {row : List GoString}
    (h : (t.formatItem f item st).1 = .ok row) :
    (t.formatItem f item st).2.1 =
      { t with columnWidth := updateWidth t.columnWidth ((t.columns.map Column.name).zip (row.map (visualWidth f))) } := by
  rw [formatItem_eq] at h ⊢
  dsimp only at h ⊢
  generalize upToError (fun c st => cell c item st) t.columns st = r at h ⊢
  obtain ⟨cells, e, s⟩ := r
  cases e with
  | none => cases h; rfl
  | some e => cases h

/-- C110. Two runs of `FormatItem` over a table that return equally wide cells leave it with the same widths, whatever the
items are and whatever state the getters are in. -/
theorem C110_same_table (f : Flags) (t : Table σ ι ν ε) (items items' : List ι) (st st' : σ)
    (rows rows' : List (List GoString)) (h : (formatAll f t items st).1 = rows.map .ok)
    (h' : (formatAll f t items' st').1 = rows'.map .ok) (hw : EquallyWide f rows rows') :
    (formatAll f t items st).2 = (formatAll f t items' st').2 := by
  induction items generalizing t items' st st' rows rows' with
  | nil =>
    cases rows with
    | cons => cases h
    | nil =>
      cases rows' with
      | cons => cases hw
      | nil =>
        cases items' with
        | nil => rfl
        | cons => cases h'
  | cons item items ih =>
    cases rows with
    | nil => cases h
    | cons row rows =>
      cases rows' with
      | nil => cases hw
      | cons row' rows' =>
        cases items' with
        | nil => cases h'
        | cons item' items' =>
          simp only [formatAll, List.map_cons, List.cons.injEq] at h h' ⊢
          simp only [EquallyWide, List.map_cons, List.cons.injEq] at hw
          have e := formatItem_ok h.1
          have e' := formatItem_ok h'.1
          rw [← hw.1, ← e] at e'
          rw [e'] at h' ⊢
          exact ih _ _ _ _ _ _ h.2 h'.2 hw.2

/-- C110. So the header is the same, so are the widths of the columns and of the table, and so is the layout of both merges:
lines, separators, spaces and places of cells are fixed by the widths of the cells in the first run, and every other run with
equally wide cells fills in its own. -/
theorem C110_session (f : Flags) (t : Table σ ι ν ε) (items : List ι) (st : σ) (rows : List (List GoString))
    (h : (formatAll f t items st).1 = rows.map .ok) (maxWidth : Int) (sep : GoString) (compact : Bool) (fails : Nat → Bool)
    (fuel : Nat) :
    ∃ (lh : Option (List (List Place) × Option Panic)) (lv : List (List Place) × Option Panic),
      ∀ (items' : List ι) (st' : σ) (rows' : List (List GoString)), (formatAll f t items' st').1 = rows'.map .ok →
        EquallyWide f rows rows' →
        let T := (formatAll f t items' st').2
        T.formatHeader f sep = (formatAll f t items st).2.formatHeader f sep ∧
        (∀ name, T.width name = (formatAll f t items st).2.width name) ∧
        (∀ margin, T.tableWidth margin = (formatAll f t items st).2.tableWidth margin) ∧
        mergeRowsHorizontal f T (itemsOf rows') maxWidth sep compact fails fuel =
          lh.map (fun x => ⟨x.1.map (fill (alignmentOf f t) (itemsOf rows')), x.2⟩) ∧
        mergeRowsVertical f T (itemsOf rows') maxWidth sep compact fails =
          ⟨lv.1.map (fill (alignmentOf f t) (itemsOf rows')), lv.2⟩ := by
  obtain ⟨lh, hh⟩ := C108_horizontal f (formatAll f t items st).2 (itemsOf rows) maxWidth sep compact fails fuel
  obtain ⟨lv, hv⟩ := C108_vertical f (formatAll f t items st).2 (itemsOf rows) maxWidth sep compact fails
  have ha : alignmentOf f (formatAll f t items st).2 = alignmentOf f t := by
    funext j; unfold alignmentOf; rw [(formatAll_grows f t items st).1]
  rw [ha] at hh hv
  refine ⟨lh, lv, fun items' st' rows' h' hw => ?_⟩
  have e := C110_same_table f t items items' st st' rows rows' h h' hw
  rw [← e]
  exact ⟨rfl, fun _ => rfl, fun _ => rfl, hh _ (same_itemsOf hw), hv _ (same_itemsOf hw)⟩

/-- Two runs over an empty table: plain items and coloured ones. -/
example :
    let t : Table Nat (List (Option GoString)) GoString Nat := { exampleTable with columnWidth := fun _ => 0 }
    let r := formatAll exampleFlags t
      [[some (lit "x"), some (lit "1")], [some (lit "中"), some (lit "22")], [some (lit ""), some (lit "3")]] 0
    let r' := formatAll exampleFlags t [[some (lit "\x1b[31mé\x1b[m"), some (lit "7")],
      [some (lit "éz"), some (lit "\x1b[1m44\x1b[m")], [some (lit "\x1b[m"), some (lit "8")]] 5
    let rows := [[lit "x!", lit "1!"], [lit "中!", lit "22!"], [lit "!", lit "3!"]]
    let rows' := [[lit "\x1b[31mé\x1b[m!", lit "7!"], [lit "éz!", lit "\x1b[1m44\x1b[m!"], [lit "\x1b[m!", lit "8!"]]
    r.1.map Except.toOption = rows.map some ∧ r'.1.map Except.toOption = rows'.map some ∧
    EquallyWide exampleFlags rows rows' ∧
    mergeRowsHorizontal exampleFlags r.2 (itemsOf rows) 15 (lit "|") false (fun _ => false) 0 =
      some ⟨[lit "x!   1!|中! 22!\n", lit "!    3!|\n"], none⟩ ∧
    mergeRowsHorizontal exampleFlags r'.2 (itemsOf rows') 15 (lit "|") false (fun _ => false) 0 =
      some ⟨[lit "\x1b[31mé\x1b[m!   7!|éz! \x1b[1m44\x1b[m!\n", lit "\x1b[m!    8!|\n"], none⟩ := by
  unfold EquallyWide
  decide +kernel

/-- Cells of other widths can change the header and move what stands beside them. -/
example :
    let t : Table Nat (List (Option GoString)) GoString Nat := { exampleTable with columnWidth := fun _ => 0 }
    let r := formatAll exampleFlags t [[some (lit "x"), some (lit "1")]] 0
    let r' := formatAll exampleFlags t [[some (lit "xxxxxx"), some (lit "1")]] 0
    ¬ EquallyWide exampleFlags [[lit "x!", lit "1!"]] [[lit "xxxxxx!", lit "1!"]] ∧
    r.2.formatHeader exampleFlags (lit "|") ≠ r'.2.formatHeader exampleFlags (lit "|") := by
  unfold EquallyWide
  decide +kernel

end GoTable
