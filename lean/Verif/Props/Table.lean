import Verif.Proofs.AlignItem
import Verif.Props.Width
import Verif.Props.Escape
import Verif.Props.Align
/-!
# Properties of tables: C20 to C29
-/

namespace GoTable
open Spec

variable {σ ι ν ε : Type}

/-! ## C20 -/

/-- C20. After any log of calls over any number of specs and tables, the width of a name in a table is
the largest of the widths that table was told about for that name. -/
theorem C20_width_is_maximum (f : Flags) (past : List (WorldOp σ ι ν ε)) (t : Nat)
    (T : Table σ ι ν ε) (hT : (worldAfter f past).table? t = some T) (name : GoString) :
    IsMax (reported name (toldTo (visualWidth f) t past)) (T.width name) := by
  have h := agrees f past
  rcases ht : (worldAfter f past).tables[t]? with _ | ⟨sp, cw⟩
  · simp [World.table?, ht] at hT
  · rw [(h.table? ht).1] at hT
    simp only [Option.some.injEq] at hT
    subst hT
    exact h.widths t sp cw ht name

/-- C20. Further calls never decrease a width, and never remove a table. -/
theorem C20_width_monotone (f : Flags) (past later : List (WorldOp σ ι ν ε)) (t : Nat)
    (T : Table σ ι ν ε) (hT : (worldAfter f past).table? t = some T) :
    ∃ T', (worldAfter f (later ++ past)).table? t = some T' ∧ ∀ name, T.width name ≤ T'.width name := by
  have told : ∃ more, toldTo (visualWidth f) t (later ++ past) = more ++ toldTo (visualWidth f) t past := by
    induction later with
    | nil => exact ⟨[], rfl⟩
    | cons op later ih =>
      obtain ⟨more, ih⟩ := ih
      have : ∃ es, toldTo (visualWidth f) t (op :: (later ++ past)) =
          es ++ toldTo (visualWidth f) t (later ++ past) := by
        cases op <;> first | exact ⟨[], rfl⟩ | skip
        · rw [toldTo]; split
          · exact ⟨_, rfl⟩
          · exact ⟨[], rfl⟩
        · rw [toldTo]; split
          · exact ⟨_, rfl⟩
          · exact ⟨[], rfl⟩
      obtain ⟨es, he⟩ := this
      exact ⟨es ++ more, by rw [List.cons_append, he, ih, List.append_assoc]⟩
  have pre : specOfTable past <+: specOfTable (later ++ past) := by
    clear told
    induction later with
    | nil => exact List.prefix_refl _
    | cons op later ih =>
      refine ih.trans ?_
      rw [List.cons_append]
      cases op <;> simp only [specOfTable] <;> first | exact List.prefix_refl _ | skip
      · split
        · exact List.prefix_append _ _
        · exact List.prefix_refl _
      · exact List.prefix_append _ _
  have h := agrees f past
  have h' := agrees f (later ++ past)
  rcases ht : (worldAfter f past).tables[t]? with _ | ⟨sp, cw⟩
  · simp [World.table?, ht] at hT
  have hlt : t < (specOfTable past).length := by
    rw [← h.tables, List.length_map]; exact (List.getElem?_eq_some_iff.mp ht).1
  have hlt' : t < (worldAfter f (later ++ past)).tables.length := by
    have := pre.length_le
    rw [← h'.tables, List.length_map] at this
    omega
  rcases ht' : (worldAfter f (later ++ past)).tables[t]? with _ | ⟨sp', cw'⟩
  · rw [List.getElem?_eq_getElem hlt'] at ht'; simp at ht'
  refine ⟨_, (h'.table? ht').1, fun name => ?_⟩
  have hm := C20_width_is_maximum f past t T hT name
  have hm' := h'.widths t sp' cw' ht' name
  obtain ⟨more, hmore⟩ := told
  rcases hm.2 with h0 | hmem
  · rw [h0]; exact UInt16.zero_le
  · apply hm'.1
    rw [hmore, reported_append]
    exact List.mem_append_right _ hmem

/-- A getter for the examples: an item lists its cells, `none` for a failing one; the state counts
calls of `Value`. -/
def exampleGetter (i : Nat) : Getter Nat (List (Option GoString)) GoString Nat where
  value item st := (match item.getD i none with | some x => .ok x | none => .error i, st + 1)
  valueString _ item st := (match item.getD i none with | some x => .ok x | none => .error i, st + 1)
  format _ v st := (.ok (v ++ lit "!"), st)

/-- A column for the examples. -/
def exampleColumn (i : Nat) (name : String) (al : Option Alignment) :
    Column Nat (List (Option GoString)) GoString Nat :=
  { getter := exampleGetter i, alignment := al, name := lit name, title := lit name ++ lit "itle",
    shortTitle := lit name }

/-- A log (latest first): two tables on one spec, two columns of the same name, a failing item. -/
def exampleLog : List (WorldOp Nat (List (Option GoString)) GoString Nat) :=
  [.formatItem 0 [some (lit "a"), none, some (lit "xxxxxxx")] 0,
   .updateWidth 1 [(lit "t", 50)],
   .formatItem 0 [some (lit "ab"), some (lit "cde"), some (lit "")] 0,
   .updateWidth 0 [(lit "u", 3), (lit "z", 9)],
   .tableAddColumn 1 (exampleColumn 2 "u" none),
   .addColumn 0 (exampleColumn 1 "t" none), .addColumn 0 (exampleColumn 0 "t" none),
   .newTable 0, .newTable 0, .newSpec]

/-- What table 0 was told, and its widths; table 1 has its own. -/
example : (reported (lit "t") (toldTo (visualWidth ⟨false, true⟩) 0 exampleLog)) = [2, 3, 4] ∧
    ((worldAfter ⟨false, true⟩ exampleLog).table? 0).map (fun T => (T.width (lit "t"), T.width (lit "u"))) =
      some (4, 3) ∧
    ((worldAfter ⟨false, true⟩ exampleLog).table? 1).map (fun T => (T.width (lit "t"), T.columnCount)) =
      some (50, 3) := by decide +kernel

/-! ## C21 -/

/-- C21. `FormatItem` makes the calls of `upToError`: it returns the cells, or the first error alone;
the widths are those before, raised by the cells before the error; the columns stay. -/
theorem C21_formatItem (f : Flags) (t : Table σ ι ν ε) (item : ι) (st : σ) :
    let cells := upToError (fun c st => cell c item st) t.columns st
    (t.formatItem f item st).1 = resultOf cells.1 cells.2.1 ∧
    (t.formatItem f item st).2.2 = cells.2.2 ∧
    (t.formatItem f item st).2.1.columns = t.columns ∧
    ∀ name, IsMax (t.width name ::
        reported name ((t.columns.map Column.name).zip (cells.1.map (visualWidth f))))
      ((t.formatItem f item st).2.1.width name) := by
  rw [formatItem_eq]
  refine ⟨rfl, rfl, rfl, fun name => ?_⟩
  have := updateWidth_isMax t.columnWidth ((t.columns.map Column.name).zip
    ((upToError (fun c st => cell c item st) t.columns st).1.map (visualWidth f))) name
  exact ⟨this.1, Or.inr this.2⟩

/-- The calls of `upToError`, said without recursion: they succeed on a prefix of the columns, one text
each, with the user state passed along; then either all columns are done, or the next call fails with
the error returned, and no further call is made. -/
theorem C21_upToError (get : Column σ ι ν ε → σ → Except ε GoString × σ) (cols : List (Column σ ι ν ε))
    (st : σ) :
    ∃ states : List σ, states.head? = some st ∧
      states.length = (upToError get cols st).1.length + 1 ∧
      (∀ i x, (upToError get cols st).1[i]? = some x → ∃ c s s', cols[i]? = some c ∧
        states[i]? = some s ∧ states[i + 1]? = some s' ∧ get c s = (.ok x, s')) ∧
      (((upToError get cols st).2.1 = none ∧ (upToError get cols st).1.length = cols.length ∧
          states.getLast? = some (upToError get cols st).2.2) ∨
       (∃ e c s, (upToError get cols st).2.1 = some e ∧
          cols[(upToError get cols st).1.length]? = some c ∧ states.getLast? = some s ∧
          get c s = (.error e, (upToError get cols st).2.2))) := by
  induction cols generalizing st with
  | nil => exact ⟨[st], rfl, rfl, by simp [upToError], Or.inl ⟨rfl, rfl, rfl⟩⟩
  | cons c cs ih =>
    rcases hg : get c st with ⟨e | x, st1⟩
    · refine ⟨[st], rfl, by simp [upToError, hg], by simp [upToError, hg], Or.inr ⟨e, c, st, ?_⟩⟩
      simp [upToError, hg]
    · obtain ⟨states, h1, h2, h3, h4⟩ := ih st1
      have hne : states ≠ [] := by rintro rfl; simp at h1
      refine ⟨st :: states, rfl, by simp [upToError, hg, h2], fun i y hi => ?_, ?_⟩
      · cases i with
        | zero =>
          simp only [upToError, hg, List.getElem?_cons_zero, Option.some.injEq] at hi
          subst hi
          refine ⟨c, st, st1, rfl, rfl, ?_, hg⟩
          rw [List.getElem?_cons_succ, ← List.head?_eq_getElem?, h1]
        | succ i =>
          simp only [upToError, hg, List.getElem?_cons_succ] at hi
          simpa using h3 i y hi
      · rw [List.getLast?_cons_of_ne_nil hne]
        simpa [upToError, hg] using h4

/-- Two columns formatted, the second failing: the first width is recorded, the third getter not called. -/
example :
    let t : Table Nat (List (Option GoString)) GoString Nat :=
      { columns := [exampleColumn 0 "a" none, exampleColumn 1 "b" none, exampleColumn 2 "c" none]
        columnWidth := fun _ => 0 }
    let r := t.formatItem ⟨false, true⟩ [some (lit "中"), none, some (lit "x")] 0
    r.1.toOption = none ∧ r.2.2 = 2 ∧ r.2.1.width (lit "a") = 3 ∧ r.2.1.width (lit "c") = 0 := by
  decide +kernel

/-! ## C22 -/

/-- C22. `UpdateWidth` is a pointwise maximum. -/
theorem C22_updateWidth_is_maximum (cw : WidthMap) (es : List (GoString × UInt16)) (name : GoString) :
    IsMax (cw name :: reported name es) (updateWidth cw es name) :=
  ⟨(updateWidth_isMax cw es name).1, Or.inr (updateWidth_isMax cw es name).2⟩

/-- C22. The iteration order does not matter, calls commute, and repeating a call changes nothing. -/
theorem C22_updateWidth_order (cw : WidthMap) (es es' ds : List (GoString × UInt16)) (h : es.Perm es') :
    updateWidth cw es = updateWidth cw es' ∧
    updateWidth (updateWidth cw es) ds = updateWidth (updateWidth cw ds) es ∧
    updateWidth (updateWidth cw es) es = updateWidth cw es := by
  have key : ∀ {as bs : List (GoString × UInt16)}, (∀ n w, w ∈ reported n as ↔ w ∈ reported n bs) →
      updateWidth cw as = updateWidth cw bs := by
    intro as bs hab
    funext n
    have ha := updateWidth_isMax cw as n
    have hb := updateWidth_isMax cw bs n
    apply UInt16.le_antisymm
    · apply hb.1
      have := ha.2
      simp only [List.mem_cons] at this ⊢
      rw [← hab]; exact this
    · apply ha.1
      have := hb.2
      simp only [List.mem_cons] at this ⊢
      rw [hab]; exact this
  refine ⟨key fun n w => ?_, ?_, ?_⟩
  · unfold reported
    exact ((h.filter _).map _).mem_iff
  · rw [← updateWidth_append, ← updateWidth_append]
    refine key fun n w => ?_
    rw [reported_append, reported_append]
    simp only [List.mem_append]
    exact or_comm
  · rw [← updateWidth_append]
    refine key fun n w => ?_
    rw [reported_append]
    simp

example : ([(lit "a", 3), (lit "b", 7)] : List (GoString × UInt16)).Perm [(lit "b", 7), (lit "a", 3)] ∧
    updateWidth (fun n => if n = lit "a" then 5 else 0) [(lit "a", 3), (lit "b", 7)] (lit "a") = 5 ∧
    updateWidth (fun n => if n = lit "a" then 5 else 0) [(lit "a", 3), (lit "b", 7)] (lit "b") = 7 :=
  ⟨List.Perm.swap _ _ _, by decide +kernel, by decide +kernel⟩

/-! ## C23 -/

/-- C23. After any log of calls: table `t` exists iff it was created; its columns are exactly those added
to its spec, directly or through any table made from that spec; its widths are determined by what was
told to it alone. -/
theorem C23_sharing (f : Flags) (past : List (WorldOp σ ι ν ε)) (t : Nat) :
    (((worldAfter f past).table? t).isSome = true ↔ t < (specOfTable past).length) ∧
    ∀ T, (worldAfter f past).table? t = some T →
      ∃ sp, (specOfTable past)[t]? = some sp ∧ T.columns = addedTo sp past ∧
        ∀ name, IsMax (reported name (toldTo (visualWidth f) t past)) (T.width name) := by
  have h := agrees f past
  constructor
  · rcases ht : (worldAfter f past).tables[t]? with _ | ⟨sp, cw⟩
    · have := List.getElem?_eq_none_iff.mp ht
      rw [← h.tables, List.length_map]
      simp [World.table?, ht]; omega
    · have := (List.getElem?_eq_some_iff.mp ht).1
      rw [← h.tables, List.length_map, (h.table? ht).1]
      simp; omega
  · intro T hT
    rcases ht : (worldAfter f past).tables[t]? with _ | ⟨sp, cw⟩
    · simp [World.table?, ht] at hT
    · have h2 := h.table? ht
      refine ⟨sp, h2.2, ?_, fun name => C20_width_is_maximum f past t T hT name⟩
      rw [h2.1] at hT
      simp only [Option.some.injEq] at hT
      subst hT
      simp [columnsOf, h2.2]

/-- The effect of one more call on the other tables: `UpdateWidth` and `FormatItem` on another table
change nothing in this one, `AddColumn` on another spec (or on a table of another spec) neither. -/
theorem C23_isolation (f : Flags) (past : List (WorldOp σ ι ν ε)) (t t' sp sp' : Nat) (hne : t' ≠ t)
    (ht : (specOfTable past)[t]? = some sp) (hsp : sp' ≠ sp) :
    (∀ es, ((worldAfter f (.updateWidth t' es :: past)).table? t) = (worldAfter f past).table? t) ∧
    (∀ item st, ((worldAfter f (.formatItem t' item st :: past)).table? t) = (worldAfter f past).table? t) ∧
    (∀ col, ((worldAfter f (.addColumn sp' col :: past)).table? t) = (worldAfter f past).table? t) ∧
    (∀ col, (specOfTable past)[t']? = some sp' →
      ((worldAfter f (.tableAddColumn t' col :: past)).table? t) = (worldAfter f past).table? t) := by
  have h := agrees f past
  have hlt : t < (worldAfter f past).tables.length := by
    have := (List.getElem?_eq_some_iff.mp ht).1
    rwa [← h.tables, List.length_map] at this
  have htab : ∃ cw, (worldAfter f past).tables[t]? = some (sp, cw) := by
    rw [h.tableSpec] at ht
    simp only [Option.map_eq_some_iff] at ht
    obtain ⟨⟨a, cw⟩, h1, h2⟩ := ht
    exact ⟨cw, by rw [h1]; simp only at h2; rw [h2]⟩
  obtain ⟨cw, hcw⟩ := htab
  have mod : ∀ g, ({ worldAfter f past with tables := (worldAfter f past).tables.modify t' g } :
      World σ ι ν ε).table? t = (worldAfter f past).table? t := by
    intro g
    simp only [World.table?]
    rw [List.getElem?_modify]
    simp [hne]
  have mods : ∀ g, ({ worldAfter f past with specs := (worldAfter f past).specs.modify sp' g } :
      World σ ι ν ε).table? t = (worldAfter f past).table? t := by
    intro g
    simp only [World.table?, hcw]
    rw [List.getElem?_modify]
    simp [hsp]
  refine ⟨fun es => ?_, fun item st => ?_, fun col => ?_, fun col hs => ?_⟩
  · exact mod _
  · simp only [worldAfter, World.step]
    split
    · rfl
    · exact mod _
  · exact mods _
  · simp only [worldAfter, World.step]
    rw [h.tableSpec] at hs
    simp only [Option.map_eq_some_iff] at hs
    obtain ⟨⟨a, cw'⟩, h1, h2⟩ := hs
    simp only at h2
    subst h2
    rw [h1]
    exact mods _

/-- Two tables of one spec and one of another. -/
example : specOfTable ((.newTableNil : WorldOp Nat (List (Option GoString)) GoString Nat) :: exampleLog) =
    [0, 0, 1] ∧
    ((worldAfter ⟨false, true⟩ (.newTableNil :: exampleLog)).table? 2).map Table.columnCount = some 0 := by
  decide +kernel

/-! ## C24 -/

/-- C24. -/
theorem C24_registry (cols : List (Column σ ι ν ε)) :
    let s := cols.foldl TableSpec.addColumn newTableSpec
    s.columns = cols ∧
    (⟨s.columns, fun _ => 0⟩ : Table σ ι ν ε).columnCount = cols.length ∧
    (∀ name, s.hasColumn name = true ↔ ∃ c ∈ cols, c.name = name) ∧
    (∀ name c, s.columnByName name = some c ↔
      ∃ before after, cols = before ++ c :: after ∧ c.name = name ∧ ∀ d ∈ after, d.name ≠ name) := by
  have h : SpecHolds (cols.foldl TableSpec.addColumn newTableSpec) cols := by
    suffices H : ∀ (cols acc : List (Column σ ι ν ε)) (s : TableSpec σ ι ν ε), SpecHolds s acc →
        SpecHolds (cols.foldl TableSpec.addColumn s) (acc ++ cols) from by
      simpa using H cols [] newTableSpec SpecHolds.new
    intro cols
    induction cols with
    | nil => intro acc s hs; simpa using hs
    | cons c cs ih =>
      intro acc s hs
      have := ih (acc ++ [c]) _ (hs.add c)
      simpa using this
  refine ⟨h.1, by simp [Table.columnCount, h.1], fun name => ?_, fun name c => ?_⟩
  · rw [TableSpec.hasColumn, h.2, latest, List.find?_isSome]
    simp
  · rw [h.2, latest, List.find?_eq_some_iff_append]
    constructor
    · rintro ⟨hn, as, bs, he, hd⟩
      refine ⟨bs.reverse, as.reverse, ?_, by simpa using hn, ?_⟩
      · have := congrArg List.reverse he
        simpa using this
      · intro d hm
        have := hd d (List.mem_reverse.mp hm)
        simpa using this
    · rintro ⟨as, bs, he, hn, hd⟩
      refine ⟨by simpa using hn, bs.reverse, as.reverse, by rw [he]; simp, fun d hm => ?_⟩
      have := hd d (List.mem_reverse.mp hm)
      simpa using this

/-- Duplicate names: the later one is found. -/
example : let s := [exampleColumn 0 "a" none, exampleColumn 1 "b" none,
      { exampleColumn 0 "a" none with title := lit "new" }].foldl TableSpec.addColumn newTableSpec
    s.columns.length = 3 ∧ s.hasColumn (lit "b") = true ∧ s.hasColumn (lit "c") = false ∧
    (s.columnByName (lit "a")).map (·.title) = some (lit "new") := by decide +kernel

/-! ## C25 -/

/-- C25. The `ValueString` results joined by the separator, or the first error; no call after it. -/
theorem C25_formatItemBasic (t : Table σ ι ν ε) (item : ι) (sep : GoString) (st : σ) :
    let r := upToError (fun c st => c.getter.valueString c.name item st) t.columns st
    t.formatItemBasic item sep st = (resultOf (sep.intercalate r.1) r.2.1, r.2.2) := by
  unfold Table.formatItemBasic
  rcases ht : t.columns with _ | ⟨c, cs⟩
  · simp [formatItemBasicLoop, upToError, resultOf, List.intercalate]
  · unfold formatItemBasicLoop upToError
    rcases hv : c.getter.valueString c.name item st with ⟨_ | v, st1⟩
    · simp [resultOf]
    · dsimp only
      rw [formatItemBasicLoop_eq item sep cs 1 (by omega)]
      have : ∀ (v : GoString) (l : List GoString),
          sep.intercalate (v :: l) = v ++ l.flatMap (fun x => sep ++ x) := by
        intro v l
        induction l generalizing v with
        | nil => simp [List.intercalate]
        | cons a l ih =>
          have : sep.intercalate (v :: a :: l) = v ++ sep ++ sep.intercalate (a :: l) := by
            simp [List.intercalate, List.intersperse]
          rw [this, ih a]
          simp [List.flatMap_cons]
      simp [this]

example : ((⟨[exampleColumn 0 "a" none, exampleColumn 1 "b" none], fun _ => 0⟩ :
      Table Nat (List (Option GoString)) GoString Nat).formatItemBasic
        [some (lit "x"), some (lit "y")] (lit ", ") 0).1.toOption = some (lit "x, y") ∧
    ((⟨[exampleColumn 0 "a" none, exampleColumn 1 "b" none, exampleColumn 2 "c" none], fun _ => 0⟩ :
      Table Nat (List (Option GoString)) GoString Nat).formatItemBasic
        [some (lit "x"), none, some (lit "z")] (lit ", ") 0).2 = 2 := by decide +kernel

/-! ## C26 -/

/-- C26. The call never panics. A slice of the wrong length is an error and nothing is written.
Otherwise the same slice is returned, its element `i` is replaced by what column `i` makes of it (nothing,
without alignment), and no other memory changes, whichever slices overlap it. -/
theorem C26_align_in_place (t : Table σ ι ν ε) (m : Memory) (s : Slice) :
    (s.len ≠ t.columns.length → t.alignFormattedItem m s = some (.error (s.len, t.columns.length), m)) ∧
    (s.len = t.columns.length → ∃ m', t.alignFormattedItem m s = some (.ok s, m') ∧
      (∀ (i : Nat) (col : Column σ ι ν ε), t.columns[i]? = some col → m' s.array (s.first + i) =
        match col.alignment with
        | none => m s.array (s.first + i)
        | some al => al (m s.array (s.first + i)) (t.width col.name)) ∧
      (∀ a k, a ≠ s.array ∨ k < s.first ∨ s.first + s.len ≤ k → m' a k = m a k)) := by
  constructor
  · intro h
    simp [Table.alignFormattedItem, Table.columnCount, h]
  · intro h
    obtain ⟨m', h1, h2, h3⟩ := alignLoop_inbounds t.columnWidth s t.columns 0 m (by omega)
    refine ⟨m', ?_, fun i col hi => ?_, fun a k hk => h3 a k (by omega)⟩
    · simp [Table.alignFormattedItem, Table.columnCount, h, h1]
    · have := h2 i col hi
      simp only [alignedCell, Nat.add_zero] at this
      rw [this]
      cases col.alignment <;> rfl

/-- Elements 3 and 4 of array 7; the second column has no alignment. -/
example :
    let t : Table Nat (List (Option GoString)) GoString Nat :=
      { columns := [exampleColumn 0 "a" (some (alignmentRight ⟨false, true⟩)), exampleColumn 1 "b" none]
        columnWidth := fun _ => 4 }
    ((t.alignFormattedItem (fun a k => if a = 7 then [UInt8.ofNat (0x41 + k)] else [])
      ⟨7, 3, 2⟩).map fun r => (List.range 6).map (r.2 7)) =
      some [lit "A", lit "B", lit "C", lit "   D", lit "E", lit "F"] := by decide +kernel

/-! ## C27 -/

/-- Formatting items one after the other: the results and the table at the end. -/
def formatAll (f : Flags) (t : Table σ ι ν ε) : List ι → σ → List (Except ε (List GoString)) × Table σ ι ν ε
  | [], _ => ([], t)
  | item :: items, st =>
    let r := t.formatItem f item st
    let rest := formatAll f r.2.1 items r.2.2
    (r.1 :: rest.1, rest.2)

theorem formatItem_grows (f : Flags) (t : Table σ ι ν ε) (item : ι) (st : σ) :
    (t.formatItem f item st).2.1.columns = t.columns ∧
    ∀ name, t.width name ≤ (t.formatItem f item st).2.1.width name := by
  have h := C21_formatItem f t item st
  exact ⟨h.2.2.1, fun name => (h.2.2.2 name).1 _ (by simp)⟩

theorem formatAll_grows (f : Flags) (t : Table σ ι ν ε) (items : List ι) (st : σ) :
    (formatAll f t items st).2.columns = t.columns ∧
    ∀ name, t.width name ≤ (formatAll f t items st).2.width name := by
  induction items generalizing t st with
  | nil => exact ⟨rfl, fun _ => UInt16.le_refl _⟩
  | cons item items ih =>
    have h1 := formatItem_grows f t item st
    have h2 := ih (t.formatItem f item st).2.1 (t.formatItem f item st).2.2
    exact ⟨h2.1.trans h1.1, fun name => UInt16.le_trans (h1.2 name) (h2.2 name)⟩

theorem upToError_le (get : Column σ ι ν ε → σ → Except ε GoString × σ) (cols : List (Column σ ι ν ε))
    (st : σ) : (upToError get cols st).1.length ≤ cols.length ∧
      ((upToError get cols st).2.1 = none → (upToError get cols st).1.length = cols.length) := by
  obtain ⟨states, _, _, _, h | ⟨e, c, s, h1, h2, _⟩⟩ := C21_upToError get cols st
  · exact ⟨by omega, fun _ => h.2.1⟩
  · have := (List.getElem?_eq_some_iff.mp h2).1
    exact ⟨by omega, fun hn => by rw [h1] at hn; simp at hn⟩

/-- Every row formatted has one cell per column, no wider than the column's final width. -/
theorem formatAll_widths (f : Flags) (t : Table σ ι ν ε) (items : List ι) (st : σ) (row : List GoString)
    (hrow : .ok row ∈ (formatAll f t items st).1) :
    row.length = t.columns.length ∧
    ∀ (i : Nat) (col : Column σ ι ν ε) x, t.columns[i]? = some col → row[i]? = some x →
      visualWidth f x ≤ (formatAll f t items st).2.width col.name := by
  induction items generalizing t st with
  | nil => simp [formatAll] at hrow
  | cons item items ih =>
    simp only [formatAll, List.mem_cons] at hrow ⊢
    have hg := formatItem_grows f t item st
    rcases hrow with hrow | hrow
    · have h := C21_formatItem f t item st
      dsimp only at h
      rw [← hrow] at h
      generalize hu : upToError (fun c st => cell c item st) t.columns st = u at h
      obtain ⟨cells, err, st'⟩ := u
      have hle := upToError_le (fun c st => cell c item st) t.columns st
      rw [hu] at hle
      have hr := h.1
      cases err with
      | some e => simp [resultOf] at hr
      | none =>
        simp only [resultOf, Except.ok.injEq] at hr
        subst hr
        have hlen := hle.2 rfl
        refine ⟨hlen, fun i col x hi hx => ?_⟩
        refine UInt16.le_trans ((h.2.2.2 col.name).1 (visualWidth f x) ?_)
          ((formatAll_grows f _ items _).2 col.name)
        refine List.mem_cons_of_mem _ ?_
        unfold reported
        rw [List.mem_map]
        refine ⟨(col.name, visualWidth f x), List.mem_filter.mpr ⟨?_, by simp⟩, rfl⟩
        apply List.mem_of_getElem? (i := i)
        rw [List.getElem?_zip_eq_some]
        simp [hi, hx]
    · have := ih (t.formatItem f item st).2.1 (t.formatItem f item st).2.2 hrow
      rw [hg.1] at this
      exact this

/-- C27. Aligning any of the formatted rows, in whatever slice it is kept, with the table as it is after
all items were formatted: every column with a built-in alignment gets a cell of exactly its width, if
the cell's edge does not join the padding. -/
theorem C27_equal_widths (f : Flags) (t : Table σ ι ν ε) (items : List ι) (st : σ) (row : List GoString)
    (hrow : .ok row ∈ (formatAll f t items st).1) (m : Memory) (s : Slice) (hlen : s.len = row.length)
    (hs : ∀ i x, row[i]? = some x → m s.array (s.first + i) = x) :
    ∃ m', (formatAll f t items st).2.alignFormattedItem m s = some (.ok s, m') ∧
      ∀ (i : Nat) (col : Column σ ι ν ε) x, t.columns[i]? = some col → row[i]? = some x →
        (col.alignment = some (alignmentLeft f) ∧ ¬ EndsInPrepend x) ∨
        (col.alignment = some (alignmentRight f) ∧ ¬ StartsExtending x) ∨
        (col.alignment = some (alignmentCenter f) ∧ ¬ StartsExtending x ∧ ¬ EndsInPrepend x) →
        visualWidth f (m' s.array (s.first + i)) = (formatAll f t items st).2.width col.name := by
  have hg := formatAll_grows f t items st
  have hw := formatAll_widths f t items st row hrow
  generalize (formatAll f t items st).2 = T at hg hw ⊢
  obtain ⟨m', h1, h2, _⟩ := (C26_align_in_place T m s).2 (by rw [hg.1, hlen, hw.1])
  refine ⟨m', h1, fun i col x hi hx hal => ?_⟩
  rw [h2 i col (by rw [hg.1]; exact hi), hs i x hx]
  have hle := hw.2 i col x hi hx
  rcases UInt16.le_iff_lt_or_eq.mp hle with hlt | heq
  · rcases hal with ⟨ha, hp⟩ | ⟨ha, hx⟩ | ⟨ha, hx, hp⟩
    · rw [ha]; exact (C16_alignmentLeft_exact f x _).2.2 hlt hp
    · rw [ha]; exact (C17_alignmentRight_exact f x _).2.2 hlt hx
    · rw [ha]; exact (C18_alignmentCenter_exact f x _).2.2 hlt hx hp
  · have hge : T.width col.name ≤ visualWidth f x := by rw [heq]; exact UInt16.le_refl _
    rcases hal with ⟨ha, hp⟩ | ⟨ha, hx⟩ | ⟨ha, hx, hp⟩
    · rw [ha]; simp only; rw [(C16_alignmentLeft_exact f x _).2.1 hge, heq]
    · rw [ha]; simp only; rw [(C17_alignmentRight_exact f x _).2.1 hge, heq]
    · rw [ha]; simp only; rw [(C18_alignmentCenter_exact f x _).2.1 hge, heq]

/-- Two items, a column of wide text aligned right. -/
example :
    let t : Table Nat (List (Option GoString)) GoString Nat :=
      { columns := [exampleColumn 0 "a" (some (alignmentRight ⟨false, true⟩)),
          exampleColumn 1 "b" (some (alignmentCenter ⟨false, true⟩))]
        columnWidth := fun _ => 0 }
    let r := formatAll ⟨false, true⟩ t [[some (lit "中文"), some (lit "q")], [some (lit "x"), some (lit "pqr")]] 0
    (r.1.map Except.toOption = [some [lit "中文!", lit "q!"], some [lit "x!", lit "pqr!"]]) ∧
    (r.2.alignFormattedItem (fun _ k => [lit "x!", lit "pqr!"].getD k []) ⟨0, 0, 2⟩).map
      (fun q => [q.2 0 0, q.2 0 1]) = some [lit "   x!", lit "pqr!"] := by decide +kernel

/-! ## C28 -/

theorem padColumnHeader_eq (f : Flags) (t : Table σ ι ν ε) (col : Column σ ι ν ε) (h : t.width col.name ≠ 0) :
    t.padColumnHeader f col =
      alignmentCenter f (headerTitle col.title col.shortTitle (t.width col.name).toNat) (t.width col.name) := by
  simp only [Table.padColumnHeader, h, if_false, headerTitle, gt_iff_lt]
  congr 1
  by_cases ht : (t.width col.name).toNat < col.title.length
  · rw [if_pos ht, if_neg (by omega : ¬ col.title.length ≤ _)]
    by_cases hs : (t.width col.name).toNat < col.shortTitle.length
    · rw [if_pos hs, if_neg (by omega)]
    · rw [if_neg hs, if_pos (by omega)]
  · rw [if_neg ht, if_pos (by omega)]

theorem padColumnHeader_text (f : Flags) (t : Table σ ι ν ε) (col : Column σ ι ν ε) (h : t.width col.name ≠ 0) :
    HeaderText (visualWidth f) col.title col.shortTitle (t.width col.name) (t.padColumnHeader f col) := by
  obtain ⟨l, r, h1, h2, h3⟩ := (C18_alignmentCenter_exact f
    (headerTitle col.title col.shortTitle (t.width col.name).toNat) (t.width col.name)).1
  exact ⟨l, r, (padColumnHeader_eq f t col h).trans h1, h2, h3⟩

/-- C28. The header is the columns' texts, each followed by the separator, and a newline. A column of
width zero shows its title; any other shows the title if its bytes fit, else the short title if its
bytes fit, else blanks, centred with spaces (an odd one goes left), with a visual width of exactly the
column's width if the text shown is well-formed. -/
theorem C28_header (f : Flags) (t : Table σ ι ν ε) (sep : GoString) :
    ∃ texts : List GoString, t.formatHeader f sep = texts.flatMap (fun x => x ++ sep) ++ lit "\n" ∧
      texts.length = t.columns.length ∧
      ∀ (i : Nat) (col : Column σ ι ν ε) text, t.columns[i]? = some col → texts[i]? = some text →
        (t.width col.name = 0 → text = col.title) ∧
        (t.width col.name ≠ 0 → HeaderText (visualWidth f) col.title col.shortTitle (t.width col.name) text ∧
          ∀ shown, shown = headerTitle col.title col.shortTitle (t.width col.name).toNat →
            0x9B ∉ runes shown → (f.eastAsianWidth = false ∨ ValidUTF8 shown) →
            ¬ StartsExtending shown → ¬ EndsInPrepend shown →
            visualWidth f text = t.width col.name) := by
  refine ⟨t.columns.map (t.padColumnHeader f), ?_, by simp, fun i col text hi hx => ?_⟩
  · unfold Table.formatHeader
    have : ∀ (cs : List (Column σ ι ν ε)) (acc : GoString),
        cs.foldl (fun str col => str ++ (t.padColumnHeader f col ++ sep)) acc =
          acc ++ (cs.map (t.padColumnHeader f)).flatMap (fun x => x ++ sep) := by
      intro cs
      induction cs with
      | nil => simp
      | cons c cs ih => intro acc; simp [ih, List.flatMap_cons]
    rw [this]; simp
  · rw [List.getElem?_map, hi] at hx
    simp only [Option.map_some, Option.some.injEq] at hx
    subst hx
    constructor
    · intro h; simp [Table.padColumnHeader, h]
    · intro h
      refine ⟨padColumnHeader_text f t col h, fun shown hsh h9 hv hs he => ?_⟩
      have hpad := padColumnHeader_eq f t col h
      rw [← hsh] at hpad
      generalize t.width col.name = w at h hpad hsh
      have hC := C18_alignmentCenter_exact f shown w
      have hlen : shown.length ≤ w.toNat := by
        rw [hsh, headerTitle]
        split
        · assumption
        · split
          · assumption
          · simp
      have hsw : stringWidth f shown ≤ shown.length := by
        rcases hv with hv | hv
        · exact (C09_stringWidth_bounds f shown).2.1 hv
        · exact (C09_stringWidth_bounds f shown).2.2 hv
      have hlt := w.toNat_lt
      have hvw := C15_no_underflow f shown h9
      have hv2 := hvw.2.2 (by omega)
      have hle : (visualWidth f shown).toNat ≤ w.toNat := by omega
      rw [hpad]
      rcases UInt16.le_iff_lt_or_eq.mp (UInt16.le_iff_toNat_le.mpr hle) with hlt | heq
      · exact hC.2.2 hlt hs he
      · rw [hC.2.1 (by rw [heq]; exact UInt16.le_refl _), heq]

/-- A title that fits, one that gives way to the short title, and one to blanks; a column without width. -/
example : (⟨[{ exampleColumn 0 "a" none with title := lit "Größe" }, exampleColumn 0 "b" none,
        { exampleColumn 0 "c" none with shortTitle := lit "xyz" }, exampleColumn 0 "d" none],
      fun n => if n = lit "a" then 9 else if n = lit "d" then 0 else 2⟩ :
      Table Nat (List (Option GoString)) GoString Nat).formatHeader ⟨false, true⟩ (lit "|") =
    lit "  Größe  | b|  |ditle|\n" := by decide +kernel

/-! ## C29 -/

/-- C29. The integer sum modulo 2^16; exact if there is a column and the sum is below 65536. -/
theorem C29_tableWidth (t : Table σ ι ν ε) (margin : UInt16) :
    ((t.tableWidth margin).toNat : Int) =
      (((t.columns.map fun c => ((t.width c.name).toNat : Int)).sum +
        ((t.columns.length : Int) - 1) * margin.toNat) % 65536) ∧
    (t.columns ≠ [] →
      (t.columns.map fun c => (t.width c.name).toNat).sum + (t.columns.length - 1) * margin.toNat < 65536 →
      (t.tableWidth margin).toNat =
        (t.columns.map fun c => (t.width c.name).toNat).sum + (t.columns.length - 1) * margin.toNat) := by
  have key : ∀ (cs : List (Column σ ι ν ε)) (a : UInt16),
      (cs.foldl (fun width col => width + t.width col.name) a).toNat =
        (a.toNat + (cs.map fun c => (t.width c.name).toNat).sum) % 65536 := by
    intro cs
    induction cs with
    | nil => intro a; have := a.toNat_lt; simp only [List.foldl_nil, List.map_nil, List.sum_nil]; omega
    | cons c cs ih => intro a; simp only [List.foldl_cons, ih, UInt16.toNat_add, List.map_cons, List.sum_cons]; omega
  have hstart : (((UInt16.ofNat t.columns.length - 1) * margin).toNat : Int) =
      (((t.columns.length : Int) - 1) * margin.toNat) % 65536 := by
    rw [UInt16.toNat_mul]
    have h1 : ((UInt16.ofNat t.columns.length - 1).toNat : Int) = ((t.columns.length : Int) - 1) % 65536 := by
      rw [UInt16.toNat_sub, UInt16.toNat_ofNat']
      have : (1 : UInt16).toNat = 1 := rfl
      rw [this]
      omega
    rw [Int.natCast_emod, Int.natCast_mul, h1]
    have e : ((2 ^ 16 : Nat) : Int) = 65536 := by decide
    rw [e]
    rw [Int.mul_emod, Int.emod_emod_of_dvd _ (Int.dvd_refl 65536), ← Int.mul_emod]
  have hsum : (t.columns.map fun c => ((t.width c.name).toNat : Int)).sum =
      (((t.columns.map fun c => (t.width c.name).toNat).sum : Nat) : Int) := by
    generalize t.columns = cs
    induction cs with
    | nil => rfl
    | cons c cs ih => simp only [List.map_cons, List.sum_cons, ih, Int.natCast_add]
  have main : ((t.tableWidth margin).toNat : Int) =
      (((t.columns.map fun c => ((t.width c.name).toNat : Int)).sum +
        ((t.columns.length : Int) - 1) * margin.toNat) % 65536) := by
    unfold Table.tableWidth Table.columnCount
    rw [key, hsum, Int.natCast_emod, Int.natCast_add, hstart]
    omega
  refine ⟨main, fun hne hlt => ?_⟩
  rw [hsum] at main
  have hpos : 1 ≤ t.columns.length := List.length_pos_iff.mpr hne
  have hc : ((t.columns.length - 1 : Nat) : Int) = (t.columns.length : Int) - 1 := by omega
  rw [← hc] at main
  have : (((t.columns.length - 1 : Nat) : Int) * margin.toNat) =
      (((t.columns.length - 1) * margin.toNat : Nat) : Int) := by rw [Int.natCast_mul]
  rw [this] at main
  omega

/-- Two columns of widths 3 and 4 with margin 2; and no columns: the sum wraps around. -/
example : (⟨[exampleColumn 0 "a" none, exampleColumn 0 "b" none], fun n => if n = lit "a" then 3 else 4⟩ :
      Table Nat (List (Option GoString)) GoString Nat).tableWidth 2 = 9 ∧
    (⟨[], fun _ => 0⟩ : Table Nat (List (Option GoString)) GoString Nat).tableWidth 2 = 65534 := by
  decide +kernel

end GoTable
