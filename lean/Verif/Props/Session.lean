import Verif.Proofs.Session
/-!
# Formatting, aligning, headers and merging together: C56, C57, C58, C59, C60
-/

namespace GoTable
open Spec

variable {σ ι ν ε : Type}

/-! ## C56 -/

/-- C56. Rows that `FormatItem` produced on a table always suit a later merge on it: every row has a cell for
every column, and no cell is wider than the recorded width. -/
theorem C56_formatted_rows (f : Flags) (t : Table σ ι ν ε) (items : List ι) (st : σ) (rows : List (List GoString))
    (hrows : (formatAll f t items st).1 = rows.map .ok) :
    FullRows (formatAll f t items st).2 (itemsOf rows) ∧ Covered f (formatAll f t items st).2 (itemsOf rows) := by
  have hg := formatAll_grows f t items st
  have key : ∀ k : Nat, k < rows.length → ((itemsOf rows).get k).length = t.columns.length ∧
      ∀ (i : Nat) (col : Column σ ι ν ε) x, t.columns[i]? = some col → ((itemsOf rows).get k)[i]? = some x →
        visualWidth f x ≤ (formatAll f t items st).2.width col.name := by
    intro k hk
    apply formatAll_widths f t items st
    rw [hrows]
    exact List.mem_map_of_mem (itemsOf_mem rows k hk)
  constructor
  · intro k hk
    rw [hg.1, (key k hk).1]
  · intro k hk c col x hcol hx
    rw [hg.1] at hcol
    exact (key k hk).2 c col x hcol hx

/-- C56. So formatting all items and then merging them never panics, in either direction, with or without
compaction (row by row, if the search ends), and without compaction no line is wider than the maximum and
one item on its own. -/
theorem C56_format_then_merge (f : Flags) (t : Table σ ι ν ε) (items : List ι) (st : σ)
    (rows : List (List GoString)) (hrows : (formatAll f t items st).1 = rows.map .ok) (hne : rows ≠ [])
    (hcols : t.columns ≠ []) (sep : GoString) (arg : Int)
    (hsep : PlainSep (itemsOf rows) sep) (hpl : pitch (formatAll f t items st).2 sep.length < 65536) :
    let T := (formatAll f t items st).2
    (∀ compact fuel run, mergeRowsHorizontal f T (itemsOf rows) arg sep compact (fun _ => false) fuel = some run →
      run.panic = none) ∧
    (∀ compact, (mergeRowsVertical f T (itemsOf rows) arg sep compact (fun _ => false)).panic = none) ∧
    ((∀ col ∈ t.columns, BuiltIn f (alignOf f col)) → (∀ row ∈ rows, ∀ x ∈ row, Settled f x) →
      clamped arg + sep.length < 65536 → ∀ fuel, ∃ run,
        mergeRowsHorizontal f T (itemsOf rows) arg sep false (fun _ => false) fuel = some run ∧
        ∀ line ∈ run.written ++ (mergeRowsVertical f T (itemsOf rows) arg sep false (fun _ => false)).written,
          ∃ text, line = text ++ [0x0A] ∧
            (visualWidth f text).toNat ≤ max (clamped arg) (recordedItem T) ∧
            (stringWidth f text : Int) - countMatchesLength text = (visualWidth f text).toNat) := by
  intro T
  obtain ⟨hfull, hcov⟩ := C56_formatted_rows f t items st rows hrows
  have hg := formatAll_grows f t items st
  have hpos : pitch T sep.length % 65536 ≠ 0 := by
    rw [show pitch T sep.length % 65536 = pitch T sep.length from Nat.mod_eq_of_lt hpl]
    unfold pitch
    have h1 : 0 < T.columns.length := by rw [hg.1]; exact List.length_pos_iff.mpr hcols
    have h2 : 0 < sep.length := List.length_pos_iff.mpr hsep.nonempty
    have := Nat.mul_pos h1 h2
    omega
  have hH : ∀ compact fuel run,
      mergeRowsHorizontal f T (itemsOf rows) arg sep compact (fun _ => false) fuel = some run → run.panic = none :=
    fun compact fuel run h => (C38_horizontal f T (itemsOf rows) arg sep compact fuel run h).2.2.1.mpr ⟨hpos, hfull⟩
  have hV : ∀ compact, (mergeRowsVertical f T (itemsOf rows) arg sep compact (fun _ => false)).panic = none :=
    fun compact => (C38_vertical f T (itemsOf rows) arg sep compact).2.2.1.mpr ⟨hpos, hfull⟩
  refine ⟨hH, hV, fun hb hs hlt fuel => ?_⟩
  have hn : 0 < (itemsOf rows).len := List.length_pos_iff.mpr hne
  have htidy : Tidy f T (itemsOf rows) :=
    ⟨by rw [hg.1]; exact hb, fun k hk x hx => hs _ (itemsOf_mem rows k hk) x hx⟩
  obtain ⟨run, hrun⟩ : ∃ run, mergeRowsHorizontal f T (itemsOf rows) arg sep false (fun _ => false) fuel = some run := by
    rcases mergeH_run f T (itemsOf rows) arg sep false (fun _ => false) fuel hpos hfull with ⟨h0, _⟩ | ⟨_, _, _, _, _, h3⟩
    · cases h0
    · exact ⟨_, h3⟩
  refine ⟨run, hrun, fun line hline => ?_⟩
  rcases List.mem_append.mp hline with h | h
  · exact C32_horizontal f T (itemsOf rows) arg sep fuel run hrun (hH false fuel run hrun) hn htidy hcov hsep hlt hpl
      line h
  · exact C32_vertical f T (itemsOf rows) arg sep (hV false) hn htidy hcov hsep hlt hpl line h

/-- Three items, formatted and merged; the hypotheses hold. -/
example :
    let t : Table Nat (List (Option GoString)) GoString Nat := { exampleTable with columnWidth := fun _ => 0 }
    let r := formatAll exampleFlags t
      [[some (lit "x"), some (lit "1")], [some (lit "中"), some (lit "22")], [some (lit ""), some (lit "3")]] 0
    let rows := [[lit "x!", lit "1!"], [lit "中!", lit "22!"], [lit "!", lit "3!"]]
    r.1.map Except.toOption = rows.map some ∧ pitch r.2 (lit "|").length = 8 ∧
    (∀ row ∈ rows, ∀ x ∈ row, Settled exampleFlags x) ∧
    mergeRowsHorizontal exampleFlags r.2 (itemsOf rows) 15 (lit "|") false (fun _ => false) 0 =
      some ⟨[lit "x!   1!|中! 22!\n", lit "!    3!|\n"], none⟩ := by decide +kernel

/-! ## C57 -/

/-- C57. Rows that went through `AlignFormattedItem` are merged as if they had not, when the merge is without
compaction, the alignments are the library's, and no cell joins a neighbouring space. -/
theorem C57_aligned_before_merge (f : Flags) (t : Table σ ι ν ε) (items items' : Items)
    (h : AlignedBy t items items') (hb : ∀ col ∈ t.columns, BuiltIn f (alignOf f col))
    (hx : ∀ k : Nat, k < items.len → ∀ x ∈ items.get k, ¬ StartsExtending x ∧ ¬ EndsInPrepend x)
    (arg : Int) (sep : GoString) (fails : Nat → Bool) (fuel : Nat) :
    mergeRowsHorizontal f t items' arg sep false fails fuel = mergeRowsHorizontal f t items arg sep false fails fuel ∧
    mergeRowsVertical f t items' arg sep false fails = mergeRowsVertical f t items arg sep false fails := by
  have hl := fun index g j =>
    lineGroups_congr f t items items' (getWidthTable t) h.1 (aligned_rows h hb hx) index g j
  constructor
  · unfold mergeRowsHorizontal printH
    simp only [hl, h.1]
    rfl
  · unfold mergeRowsVertical printV
    simp only [hl, h.1]
    rfl

/-- A row before and after. -/
example : AlignedBy exampleTable (itemsOf [[lit "中", lit "1"]]) (itemsOf [[lit "中", lit " 1"]]) ∧
    ∀ x ∈ [lit "中", lit "1"], ¬ StartsExtending x ∧ ¬ EndsInPrepend x := by
  refine ⟨⟨rfl, fun k hk => ?_⟩, by decide +kernel⟩
  have : k = 0 := by simp [itemsOf] at hk; omega
  subst this
  obtain ⟨m', h1, h2, _⟩ := (C26_align_in_place exampleTable (fun _ k => [lit "中", lit "1"].getD k []) ⟨0, 0, 2⟩).2 rfl
  have e0 := h2 0 _ rfl
  have e1 := h2 1 _ rfl
  refine ⟨_, _, m', h1, by decide +kernel, ?_⟩
  show [lit "中", lit " 1"] = [m' 0 (0 + 0), m' 0 (0 + 1)]
  rw [e0, e1]
  decide +kernel

/-- With compaction it does make a difference: aligned cells are as wide as their columns. -/
theorem C57_not_with_compaction :
    (mergeRowsVertical exampleFlags exampleTable (itemsOf [[lit "x", lit "1"], [lit "y", lit "2"], [lit "z", lit "3"]])
        13 (lit "|") true (fun _ => false)).written = [lit "x 1|y 2|z 3\n"] ∧
    (mergeRowsVertical exampleFlags exampleTable (itemsOf [[lit "x", lit " 1"], [lit "y", lit " 2"], [lit "z", lit " 3"]])
        13 (lit "|") true (fun _ => false)).written = [lit "x  1|z  3\n", lit "y  2|\n"] := by decide +kernel

/-! ## C58 -/

/-- C58. In both merges a column without alignment is the same as one with `AlignmentLeft`, whatever the other
arguments, panics included. -/
theorem C58_nil_alignment (f : Flags) (t : Table σ ι ν ε) (items : Items) (arg : Int) (sep : GoString)
    (compact : Bool) (fails : Nat → Bool) (fuel : Nat) :
    let t' : Table σ ι ν ε :=
      { t with columns := t.columns.map fun c => { c with alignment := some (c.alignment.getD (alignmentLeft f)) } }
    mergeRowsHorizontal f t' items arg sep compact fails fuel =
      mergeRowsHorizontal f t items arg sep compact fails fuel ∧
    mergeRowsVertical f t' items arg sep compact fails = mergeRowsVertical f t items arg sep compact fails := by
  intro t'
  apply C49_depends
  · simp only [columnView, t', List.map_map]
    rfl
  · rfl
  · intro _ _; rfl

/-- `AlignFormattedItem` is different: there a column without alignment leaves its cell alone. -/
theorem C58_not_when_aligning :
    (exampleTable.alignFormattedItem (fun _ k => [lit "x", lit "1"].getD k []) ⟨0, 0, 2⟩).map
      (fun r => contents r.2 ⟨0, 0, 2⟩) = some [lit "x", lit " 1"] ∧
    (({ exampleTable with columns := exampleTable.columns.map fun c => { c with alignment := some (alignmentLeft exampleFlags) } } :
        Table Nat (List (Option GoString)) GoString Nat).alignFormattedItem
      (fun _ k => [lit "x", lit "1"].getD k []) ⟨0, 0, 2⟩).map (fun r => contents r.2 ⟨0, 0, 2⟩) =
      some [lit "x   ", lit "1 "] := by decide +kernel

/-! ## C59 -/

/-- C59. The header and an aligned row joined by the same separator line up: column `c` starts at the same
offset in both and is as wide as recorded, if no recorded width is zero, titles and cells join neither
neighbour, every column has a built-in alignment and no cell is wider than recorded. -/
theorem C59_header_lines_up (f : Flags) (t : Table σ ι ν ε) (sep : GoString) (m m' : Memory) (s : Slice)
    (hal : t.alignFormattedItem m s = some (.ok s, m'))
    (hsep : sep ≠ [] ∧ (∀ b ∈ sep, 0x20 ≤ b.toNat ∧ b.toNat ≤ 0x7E) ∧ ∀ b, sep.head? = some b → b ∉ escapeChars)
    (hw : ∀ col ∈ t.columns, t.width col.name ≠ 0)
    (ht : ∀ col ∈ t.columns, TitleOk f col.title ∧ TitleOk f col.shortTitle)
    (hb : ∀ col ∈ t.columns, ∃ al, col.alignment = some al ∧ BuiltIn f al)
    (hx : ∀ x ∈ contents m s, Settled f x)
    (hcov : ∀ (c : Nat) (col : Column σ ι ν ε) (x : GoString), t.columns[c]? = some col →
      (contents m s)[c]? = some x → visualWidth f x ≤ t.width col.name)
    (c : Nat) (col : Column σ ι ν ε) (hc : t.columns[c]? = some col) :
    ∃ hpre htext hpost rpre rtext rpost,
      t.formatHeader f sep = hpre ++ htext ++ sep ++ hpost ∧
      HeaderText (visualWidth f) col.title col.shortTitle (t.width col.name) htext ∧
      sep.intercalate (contents m' s) = rpre ++ rtext ++ rpost ∧
      (contents m' s)[c]? = some rtext ∧
      (stringWidth f hpre : Int) - countMatchesLength hpre = columnStart t sep.length c ∧
      (stringWidth f rpre : Int) - countMatchesLength rpre = columnStart t sep.length c ∧
      visualWidth f hpre = visualWidth f rpre ∧
      visualWidth f htext = t.width col.name ∧ visualWidth f rtext = t.width col.name := by
  have hso : SepOk False sep := ⟨hsep.1, hsep.2.1, Or.inl fun b hb =>
    stops_of_not_escapeChar b (hsep.2.1 b (List.mem_of_mem_head? hb)) (hsep.2.2 b hb)⟩
  -- the header
  have hhead : ∀ col ∈ t.columns, Part f False (t.padColumnHeader f col) ((t.columnWidth col.name).toNat : Int) :=
    fun col hcol => part_header (hw col hcol) (ht col hcol).1 (ht col hcol).2 (fun h => h.elim)
  have hsplit := split_at t.columns c col hc
  have h1 : t.formatHeader f sep = ((t.columns.take c).map (t.padColumnHeader f)).flatMap (fun x => x ++ sep) ++
      t.padColumnHeader f col ++ sep ++
      (((t.columns.drop (c + 1)).map (t.padColumnHeader f)).flatMap (fun x => x ++ sep) ++ [0x0A]) := by
    rw [formatHeader_eq]
    conv => lhs; rw [hsplit]
    simp only [List.map_append, List.map_cons, List.flatMap_append, List.flatMap_cons, List.append_assoc]
  have hp1 := part_prefix hso (forall₂_map (R := Part f False) (t.padColumnHeader f)
    (fun col => ((t.columnWidth col.name).toNat : Int)) (t.columns.take c)
    (fun col hcol => hhead col (List.mem_of_mem_take hcol))) (part_nil f False)
  rw [columnStart_eq, List.append_nil] at hp1
  -- the row
  obtain ⟨hlen, hcell⟩ := contents_aligned hal
  have hlen' : (contents m' s).length = t.columns.length := by simp [contents, hlen]
  have hcellp : ∀ (i : Nat) (col : Column σ ι ν ε), t.columns[i]? = some col →
      ∃ y, (contents m' s)[i]? = some y ∧ Part f False y ((t.columnWidth col.name).toNat : Int) := by
    intro i col hi
    obtain ⟨x, h2, h3⟩ := hcell i col hi
    obtain ⟨al, ha, hba⟩ := hb col (List.mem_of_getElem? hi)
    rw [ha] at h3
    exact ⟨_, h3, part_align hba (hx x (List.mem_of_getElem? h2)) (fun h => h.elim) (hcov i col x hi h2)⟩
  have hrow : List.Forall₂ (Part f False) (contents m' s)
      (t.columns.map fun col => ((t.columnWidth col.name).toNat : Int)) := by
    rw [List.forall₂_iff_get]
    refine ⟨by simp [hlen'], fun i h4 h5 => ?_⟩
    have h5' : i < t.columns.length := by simpa using h5
    obtain ⟨y, h6, h7⟩ := hcellp i _ (List.getElem?_eq_getElem h5')
    have : (contents m' s).get ⟨i, h4⟩ = y := by
      rw [List.getElem?_eq_getElem h4] at h6
      exact Option.some.inj h6
    rw [this]
    simpa using h7
  obtain ⟨y, hy, hyp⟩ := hcellp c col hc
  have hp2 := part_prefix hso (forall₂_take hrow c) (part_nil f False)
  rw [← List.map_take, columnStart_eq, List.append_nil] at hp2
  have hcut : sep.intercalate (contents m' s) =
      ((contents m' s).take c).flatMap (· ++ sep) ++ y ++ ((contents m' s).drop (c + 1)).flatMap (sep ++ ·) := by
    conv => lhs; rw [split_at (contents m' s) c y hy]
    rw [intercalate_split]
  refine ⟨_, _, _, _, y, _, h1, padColumnHeader_text f t col (hw col (List.mem_of_getElem? hc)), hcut, hy, ?_, ?_, ?_, ?_, ?_⟩
  · rw [countMatchesLength_eq]; exact hp1.width
  · rw [countMatchesLength_eq]; exact hp2.width
  · rw [visualWidth_eq_mw, visualWidth_eq_mw, hp1.width, hp2.width]
  · rw [visualWidth_eq_mw, (hhead col (List.mem_of_getElem? hc)).width, u16_eq_ofNat, UInt16.ofNat_toNat]; rfl
  · rw [visualWidth_eq_mw, hyp.width, u16_eq_ofNat, UInt16.ofNat_toNat]; rfl

/-- A header with a centred, a shortened and a blank title over a row of wide and coloured cells. -/
def lineUpTable : Table Nat (List (Option GoString)) GoString Nat :=
  { columns := [{ exampleColumn 0 "a" (some (alignmentLeft exampleFlags)) with title := lit "Größe" },
      exampleColumn 1 "b" (some (alignmentRight exampleFlags)),
      { exampleColumn 2 "c" (some (alignmentCenter exampleFlags)) with shortTitle := lit "xyz" }]
    columnWidth := fun n => if n = lit "a" then 9 else if n = lit "b" then 4 else 2 }

def lineUpMemory : Memory := fun _ k => [lit "中文", lit "\x1b[1m12\x1b[0m", lit "é"].getD k []

example : lineUpTable.formatHeader exampleFlags (lit " | ") = lit "  Größe   |   b  |    | \n" ∧
    (lineUpTable.alignFormattedItem lineUpMemory ⟨0, 0, 3⟩).map (fun r => (lit " | ").intercalate (contents r.2 ⟨0, 0, 3⟩)) =
      some (lit "中文      |   \x1b[1m12\x1b[0m |  é") ∧
    columnStart lineUpTable 3 2 = 19 ∧
    (∀ x ∈ contents lineUpMemory ⟨0, 0, 3⟩, Settled exampleFlags x) ∧
    (∀ col ∈ lineUpTable.columns, ∀ x ∈ [col.title, col.shortTitle],
      0x9B ∉ runes x ∧ ¬ StartsExtending x ∧ ¬ EndsInPrepend x) := by decide +kernel

/-- A column of width zero breaks it: its header is the whole title. -/
theorem C59_not_without_width :
    (⟨[exampleColumn 0 "a" (some (alignmentLeft exampleFlags)), exampleColumn 1 "b" (some (alignmentLeft exampleFlags))],
        fun n => if n = lit "a" then 0 else 5⟩ : Table Nat (List (Option GoString)) GoString Nat).formatHeader
      exampleFlags (lit "|") = lit "aitle|bitle|\n" := by decide +kernel

/-! ## C60 -/

theorem onLine_same (n g i : Nat) (hg : 0 < g) (h : g = 1 ∨ n ≤ g) (hi : i < linesFor n g) :
    onLineV n g (linesFor n g) i = onLineH n g i := by
  unfold onLineV onLineH
  congr 1
  apply List.map_congr_left
  intro j hj
  have hj := List.mem_range.mp hj
  rcases h with rfl | h
  · have : j = 0 := by omega
    subst this; omega
  · have hL : linesFor n g = 1 := by
      rcases Nat.eq_zero_or_pos n with rfl | hn
      · unfold linesFor at hi
        rw [Nat.div_eq_of_lt (by omega)] at hi
        omega
      · unfold linesFor
        rw [Nat.div_eq_of_lt_le] <;> omega
    rw [hL] at hi ⊢
    have : i = 0 := by omega
    subst this; omega

/-- C60. Without compaction both merges settle on the same number of groups, with the recorded widths, and so
print the same number of lines, with the same items in another order. If there is one group, or there are
at least as many groups as items, they print the same. -/
theorem C60_same_shape (f : Flags) (t : Table σ ι ν ε) (items : Items) (arg : Int) (sep : GoString) (fuel : Nat)
    (run : MergeRun) (h : mergeRowsHorizontal f t items arg sep false (fun _ => false) fuel = some run)
    (hrun : run.panic = none) (hn : 0 < items.len) :
    let runV := mergeRowsVertical f t items arg sep false (fun _ => false)
    runV.panic = none ∧ ∃ g w, g = plainGroups (clamped arg) sep.length (pitch t sep.length) ∧
      (∀ j c col, t.columns[c]? = some col → w j c = t.columnWidth col.name) ∧
      run.written = listingH f t.columns w sep (fun k => items.get k) items.len g ∧
      runV.written = listingV f t.columns w sep (fun k => items.get k) items.len g ∧
      runV.written.length = run.written.length ∧
      (g = 1 ∨ items.len ≤ g → runV = run) := by
  intro runV
  obtain ⟨hp, hr⟩ := (C38_horizontal f t items arg sep false fuel run h).2.2.1.mp hrun
  have hrunV : runV.panic = none := (C38_vertical f t items arg sep false).2.2.1.mpr ⟨hp, hr⟩
  obtain ⟨g, w, hg, hch, hwr⟩ := C30_horizontal f t items arg sep false fuel run h hrun hn
  obtain ⟨g', w', hg', hch', hwr'⟩ := C31_vertical f t items arg sep false hrunV hn
  have hgg : g' = g := by rw [hch.plain rfl, hch'.plain rfl]
  subst hgg
  have hrec := hch.recorded (hch.plain rfl)
  have hrec' := hch'.recorded (hch'.plain rfl)
  have he : ∀ j, itemText f t.columns (w' j) = itemText f t.columns (w j) := by
    intro j
    funext row
    unfold itemText
    congr 1
    apply List.ext_getElem?
    intro c
    rw [List.getElem?_mapIdx, List.getElem?_mapIdx]
    rcases hx : (t.columns.zip row)[c]? with _ | ⟨col, x⟩
    · rfl
    · have hcol := (List.getElem?_zip_eq_some.mp hx).1
      simp only [Option.map_some]
      rw [hrec j c col hcol, hrec' j c col hcol]
  have hV : runV.written = listingV f t.columns w sep (fun k => items.get k) items.len g' := by
    show (mergeRowsVertical f t items arg sep false (fun _ => false)).written = _
    rw [hwr']
    unfold listingV lineText
    simp only [he]
  refine ⟨hrunV, g', w, hch.plain rfl, hrec, hwr, hV, by rw [hV, hwr]; simp [listingH, listingV], fun hs => ?_⟩
  have hw : runV.written = run.written := by
    rw [hV, hwr]
    unfold listingV listingH
    apply List.map_congr_left
    intro i hi
    rw [onLine_same _ _ _ hg hs (List.mem_range.mp hi)]
  have e1 : runV = ⟨runV.written, runV.panic⟩ := rfl
  have e2 : run = ⟨run.written, run.panic⟩ := rfl
  rw [e1, e2, hw, hrunV, hrun]

/-- Same lines for one group, other lines for two. -/
example :
    mergeRowsHorizontal exampleFlags exampleTable exampleItems 10 (lit "|") false (fun _ => false) 0 =
      some (mergeRowsVertical exampleFlags exampleTable exampleItems 10 (lit "|") false (fun _ => false)) ∧
    mergeRowsHorizontal exampleFlags exampleTable exampleItems 20 (lit "|") false (fun _ => false) 0 ≠
      some (mergeRowsVertical exampleFlags exampleTable exampleItems 20 (lit "|") false (fun _ => false)) := by
  decide +kernel

end GoTable
