import Verif.Model.Literal
import Verif.Props.Merge
/-!
# Specs and tables made as literals: C61, C62
-/

namespace GoTable
open Spec

variable {σ ι ν ε : Type}

/-- A spec without nil. -/
def TableSpec.toLiteral (s : TableSpec σ ι ν ε) : LiteralSpec σ ι ν ε :=
  { columnByName := some s.columnByName, columns := s.columns.map some }

/-! ## C61 -/

/-- C61. `AddColumn` always appends the argument to the columns. It panics exactly if the column or the map is
nil, and then no name is registered; otherwise it does what the spec made by `NewTableSpec` does. -/
theorem C61_addColumn (t : LiteralSpec σ ι ν ε) (col : Option (Column σ ι ν ε)) :
    (t.addColumn col).2.columns = t.columns ++ [col] ∧
    ((t.addColumn col).1 = none ↔ col.isSome = true ∧ t.columnByName.isSome = true) ∧
    ((t.addColumn col).1 ≠ none → ∀ name, (t.addColumn col).2.hasColumn name = t.hasColumn name) ∧
    (∀ (s : TableSpec σ ι ν ε) (c : Column σ ι ν ε), s.toLiteral.addColumn (some c) = (none, (s.addColumn c).toLiteral)) := by
  refine ⟨?_, ?_, ?_, fun s c => ?_⟩
  · unfold LiteralSpec.addColumn
    rcases col with _ | c
    · rfl
    · dsimp only; split <;> rfl
  · unfold LiteralSpec.addColumn
    rcases col with _ | c
    · simp
    · rcases t.columnByName with _ | m <;> simp
  · unfold LiteralSpec.addColumn
    rcases col with _ | c
    · intro _ name; rfl
    · rcases ht : t.columnByName with _ | m
      · intro _ name; simp [ht, LiteralSpec.hasColumn]
      · simp
  · simp [LiteralSpec.addColumn, TableSpec.toLiteral, TableSpec.addColumn]

/-- C61. So a literal `TableSpec{}` never registers a name, but counts every column whose addition panicked. -/
theorem C61_zero_spec (cols : List (Option (Column σ ι ν ε))) :
    let t := cols.foldl (fun t col => (t.addColumn col).2) (zeroSpec : LiteralSpec σ ι ν ε)
    t.columns = cols ∧ (∀ name, t.hasColumn name = false) ∧ ∀ col, (t.addColumn col).1 ≠ none := by
  have key : ∀ (cols : List (Option (Column σ ι ν ε))) (t : LiteralSpec σ ι ν ε), t.columnByName = none →
      (cols.foldl (fun t col => (t.addColumn col).2) t).columns = t.columns ++ cols ∧
      (cols.foldl (fun t col => (t.addColumn col).2) t).columnByName = none := by
    intro cols
    induction cols with
    | nil => intro t h; simpa using h
    | cons c cs ih =>
      intro t h
      have h1 := (C61_addColumn t c).1
      have h2 : (t.addColumn c).2.columnByName = none := by
        unfold LiteralSpec.addColumn
        rcases c with _ | c <;> simp [h]
      have := ih _ h2
      rw [h1] at this
      simpa using this
  intro t
  obtain ⟨h1, h2⟩ := key cols zeroSpec rfl
  refine ⟨h1, fun name => ?_, fun col h => ?_⟩
  · show LiteralSpec.hasColumn (cols.foldl _ _) name = false
    unfold LiteralSpec.hasColumn
    rw [h2]
  · have := ((C61_addColumn _ col).2.1.mp h).2
    rw [h2] at this
    cases this

example : let t := ((zeroSpec : LiteralSpec Nat (List (Option GoString)) GoString Nat).addColumn
      (some (exampleColumn 0 "a" none)))
    t.1 = some .mapWrite ∧ t.2.columns.length = 1 ∧ t.2.hasColumn (lit "a") = false ∧
    (newTableSpec.toLiteral.addColumn (none : Option (Column Nat (List (Option GoString)) GoString Nat))).1 =
      some .deref := by decide +kernel

/-! ## C62 -/

/-- A width map is never nil after `NewTable`; then raising never panics. -/
theorem raiseWidth_some (m : WidthMap) (name : GoString) (w : UInt16) :
    raiseWidth (some m) name w = .ok (some (if w > m name then WidthMap.set m name w else m)) := by
  unfold raiseWidth readWidth
  dsimp only
  split <;> rfl

theorem raiseWidth_none (name : GoString) (w : UInt16) :
    raiseWidth none name w = if w = 0 then .ok none else .error .mapWrite := by
  unfold raiseWidth readWidth
  dsimp only
  by_cases h : w = 0
  · subst h; rfl
  · have : w > 0 := by
      rw [gt_iff_lt, UInt16.lt_iff_toNat_lt]
      have : w.toNat ≠ 0 := fun h' => h (UInt16.toNat_inj.mp h')
      show 0 < w.toNat
      omega
    rw [if_pos this, if_neg h]

theorem literalUpdateWidth_some (m : WidthMap) (es : List (GoString × UInt16)) :
    literalUpdateWidth (some m) es = (none, some (updateWidth m es)) := by
  induction es generalizing m with
  | nil => rfl
  | cons e es ih =>
    obtain ⟨n, w⟩ := e
    rw [literalUpdateWidth, raiseWidth_some]
    exact ih _

theorem literalUpdateWidth_none (es : List (GoString × UInt16)) :
    literalUpdateWidth none es = (if ∀ e ∈ es, e.2 = 0 then none else some .mapWrite, none) := by
  induction es with
  | nil => rfl
  | cons e es ih =>
    obtain ⟨n, w⟩ := e
    rw [literalUpdateWidth, raiseWidth_none]
    by_cases h : w = 0
    · rw [if_pos h]
      dsimp only
      rw [ih]
      simp only [List.forall_mem_cons, h, true_and]
    · rw [if_neg h, if_neg (fun h' => h (h' _ List.mem_cons_self))]

theorem literalFormatLoop_some (f : Flags) (item : ι) (cols : List (Column σ ι ν ε)) (done : List GoString)
    (m : WidthMap) (st : σ) :
    literalFormatLoop f item (cols.map some) done (some m) st =
      (match (formatItemLoop f item cols done m st).1 with
        | .ok cells => .row cells
        | .error e => .error e, some (formatItemLoop f item cols done m st).2.1,
        (formatItemLoop f item cols done m st).2.2) := by
  induction cols generalizing done m st with
  | nil => rfl
  | cons c cs ih =>
    rw [List.map_cons]
    unfold literalFormatLoop formatItemLoop
    rcases c.getter.value item st with ⟨_ | v, st⟩
    · rfl
    · dsimp only
      rcases c.getter.format item v st with ⟨_ | x, st⟩
      · rfl
      · dsimp only
        rw [raiseWidth_some]
        exact ih _ _ _

/-- C62. On a table made by `NewTable` nothing changes; without a width map (`&Table{TableSpec: spec}`)
`UpdateWidth` panics exactly if some width given is not 0. -/
theorem C62_updateWidth (es : List (GoString × UInt16)) :
    (∀ m : WidthMap, literalUpdateWidth (some m) es = (none, some (updateWidth m es))) ∧
    ((literalUpdateWidth none es).1 = none ↔ ∀ e ∈ es, e.2 = 0) ∧ (literalUpdateWidth none es).2 = none := by
  refine ⟨fun m => literalUpdateWidth_some m es, ?_, ?_⟩
  · rw [literalUpdateWidth_none]
    by_cases h : ∀ e ∈ es, e.2 = 0
    · simp only [if_pos h, true_iff]; exact h
    · simp only [if_neg h]
      constructor
      · intro h'; cases h'
      · intro h'; exact absurd h' h
  · rw [literalUpdateWidth_none]

/-- C62. On a table made by `NewTable` with no nil column, `FormatItem` is as modelled before and never panics. -/
theorem C62_formatItem_agrees (f : Flags) (t : Table σ ι ν ε) (item : ι) (st : σ) :
    ((⟨t.columns.map some, some t.columnWidth⟩ : LiteralTable σ ι ν ε).formatItem f item st) =
      (match (t.formatItem f item st).1 with
        | .ok cells => .row cells
        | .error e => .error e, ⟨t.columns.map some, some (t.formatItem f item st).2.1.columnWidth⟩,
        (t.formatItem f item st).2.2) := by
  unfold LiteralTable.formatItem Table.formatItem
  simp only [literalFormatLoop_some]

/-- The cells before the first error, the first nil column and the first panic. -/
theorem literalFormatLoop_none (f : Flags) (item : ι) (cols : List (Column σ ι ν ε)) (done : List GoString) (st : σ) :
    let r := upToError (fun c st => cell c item st) cols st
    (literalFormatLoop f item (cols.map some) done none st).2.1 = none ∧
    ((literalFormatLoop f item (cols.map some) done none st).1 = .panic .mapWrite ↔ ∃ x ∈ r.1, visualWidth f x ≠ 0) ∧
    ((∀ x ∈ r.1, visualWidth f x = 0) →
      literalFormatLoop f item (cols.map some) done none st =
        (match r.2.1 with | none => .row (done ++ r.1) | some e => .error e, none, r.2.2)) := by
  induction cols generalizing done st with
  | nil =>
    refine ⟨rfl, ?_, fun _ => ?_⟩
    · simp [literalFormatLoop, upToError]
    · simp [literalFormatLoop, upToError]
  | cons c cs ih =>
    rw [List.map_cons]
    simp only [upToError, cell, literalFormatLoop]
    rcases c.getter.value item st with ⟨_ | v, st⟩
    · simp
    · dsimp only
      rcases hfm : c.getter.format item v st with ⟨_ | x, st⟩
      · simp
      · dsimp only
        rw [raiseWidth_none]
        by_cases h : visualWidth f x = 0
        · rw [if_pos h]
          obtain ⟨h1, h2, h3⟩ := ih (done ++ [x]) st
          refine ⟨h1, ?_, fun hall => ?_⟩
          · dsimp only
            rw [h2]
            simp [h, cell]
          · dsimp only
            rw [h3 (fun y hy => hall y (List.mem_cons_of_mem _ hy)), List.append_assoc, List.singleton_append]
            rfl
        · rw [if_neg h]
          refine ⟨rfl, ?_, fun hall => absurd (hall x (by simp)) h⟩
          simp [h]

/-- C62. Without a width map `FormatItem` panics exactly if some cell it formats has a width; it never records
one. -/
theorem C62_formatItem_without_map (f : Flags) (cols : List (Column σ ι ν ε)) (item : ι) (st : σ) :
    let cells := upToError (fun c st => cell c item st) cols st
    let r := (⟨cols.map some, none⟩ : LiteralTable σ ι ν ε).formatItem f item st
    r.2.1.columnWidth = none ∧
    (r.1 = .panic .mapWrite ↔ ∃ x ∈ cells.1, visualWidth f x ≠ 0) ∧
    ((∀ x ∈ cells.1, visualWidth f x = 0) →
      r.1 = (match cells.2.1 with | none => .row cells.1 | some e => .error e)) := by
  intro cells r
  obtain ⟨h1, h2, h3⟩ := literalFormatLoop_none f item cols [] st
  refine ⟨h1, h2, fun h => ?_⟩
  show (literalFormatLoop f item (cols.map some) [] none st).1 = _
  rw [h3 h]
  simp [cells]

/-- C62. A nil column makes `FormatItem` panic, unless an error comes before it. -/
theorem C62_nil_column (f : Flags) (before after : List (Option (Column σ ι ν ε))) (m : Option WidthMap) (item : ι)
    (st : σ) : ∀ row, ((⟨before ++ none :: after, m⟩ : LiteralTable σ ι ν ε).formatItem f item st).1 ≠ .row row := by
  intro row
  show (literalFormatLoop f item (before ++ none :: after) [] m st).1 ≠ _
  generalize ([] : List GoString) = done
  induction before generalizing done m st with
  | nil => simp [literalFormatLoop]
  | cons c cs ih =>
    rcases c with _ | c
    · simp [literalFormatLoop]
    · rw [List.cons_append]
      unfold literalFormatLoop
      rcases c.getter.value item st with ⟨_ | v, st⟩
      · simp
      · dsimp only
        rcases c.getter.format item v st with ⟨_ | x, st⟩
        · simp
        · dsimp only
          rcases raiseWidth m c.name (visualWidth f x) with p | m'
          · simp
          · exact ih _ _ _

/-- An item of empty texts is formatted, any other panics. The example getter adds an exclamation mark. -/
example :
    let col := exampleColumn 0 "a" none
    let empty : Column Nat (List (Option GoString)) GoString Nat :=
      { col with getter := { col.getter with format := fun _ _ st => (.ok (lit "\t"), st) } }
    ((⟨[some col], none⟩ : LiteralTable Nat (List (Option GoString)) GoString Nat).formatItem exampleFlags
      [some (lit "")] 0).1 = .panic .mapWrite ∧
    ((⟨[some empty], none⟩ : LiteralTable Nat (List (Option GoString)) GoString Nat).formatItem exampleFlags
      [some (lit "")] 0).1 = .row [lit "\t"] ∧
    ((⟨[some col, none], some fun _ => 0⟩ : LiteralTable Nat (List (Option GoString)) GoString Nat).formatItem
      exampleFlags [some (lit "")] 0).1 = .panic .deref ∧
    (literalUpdateWidth none [(lit "a", 0), (lit "b", 1)]).1 = some .mapWrite := by decide +kernel

/-- C62. `TableWidth` does without a width map: all widths are 0. -/
theorem C62_tableWidth (cols : List (Column σ ι ν ε)) (m : Option WidthMap) (margin : UInt16) :
    (⟨cols.map some, m⟩ : LiteralTable σ ι ν ε).tableWidth margin =
      some ((⟨cols, m.getD fun _ => 0⟩ : Table σ ι ν ε).tableWidth margin) := by
  unfold LiteralTable.tableWidth Table.tableWidth Table.columnCount Table.width
  simp only [List.length_map]
  generalize (UInt16.ofNat cols.length - 1) * margin = a
  induction cols generalizing a with
  | nil => rfl
  | cons c cs ih =>
    rw [List.map_cons, List.foldlM_cons, List.foldl_cons]
    have := ih (a + (m.getD fun _ => 0) c.name)
    rw [← this]
    show List.foldlM _ (a + readWidth m c.name) _ = _
    congr 1
    cases m <;> rfl

end GoTable
