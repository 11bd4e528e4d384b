import Verif.Proofs.MergeEnd
import Verif.Proofs.MergeDepend
import Verif.Props.Table
/-!
# Merged listings

`mergeRowsHorizontal … fuel` is `none` while the compact search has not ended within `fuel` rounds;
`some run` gives the lines handed to the writer and the panic, if any. `fun _ => false` is a writer that
never fails.
-/

namespace GoTable
open Spec

variable {σ ι ν ε σ' ι' ν' ε' : Type}

/-- Settings for the examples. -/
def exampleFlags : Flags := ⟨false, true⟩

/-- A table for the examples: two columns, widths 4 and 2, the second aligned right. -/
def exampleTable : Table Nat (List (Option GoString)) GoString Nat :=
  { columns := [exampleColumn 0 "a" none, exampleColumn 1 "b" (some (alignmentRight exampleFlags))]
    columnWidth := fun n => if n = lit "a" then 4 else 2 }

/-- Items for the examples. -/
def exampleItems : Items :=
  { len := 5
    get := fun k => [[lit "x", lit "1"], [lit "中文", lit "2"], [lit "y", lit "33"], [lit "zz", lit "4"],
      [lit "w", lit "5"]].getD k.toNat [] }

theorem exampleItems_full : FullRows exampleTable exampleItems := by
  intro k hk
  have : k < 5 := hk
  match k, this with
  | 0, _ | 1, _ | 2, _ | 3, _ | 4, _ => decide

/-! ## C38 -/

/-- C38. Row by row: division by zero exactly if the width of one item is 0 modulo 2^16; otherwise an
index panic exactly if some row is short; otherwise no panic. -/
theorem C38_horizontal (f : Flags) (t : Table σ ι ν ε) (items : Items) (arg : Int) (sep : GoString)
    (compact : Bool) (fuel : Nat) (run : MergeRun)
    (h : mergeRowsHorizontal f t items arg sep compact (fun _ => false) fuel = some run) :
    (run.panic = some .divideByZero ↔ pitch t sep.length % 65536 = 0) ∧
    (run.panic = some .index ↔ pitch t sep.length % 65536 ≠ 0 ∧ ¬ FullRows t items) ∧
    (run.panic = none ↔ pitch t sep.length % 65536 ≠ 0 ∧ FullRows t items) ∧
    (pitch t sep.length % 65536 = 0 → run.written = []) := by
  by_cases hp : pitch t sep.length % 65536 = 0
  · unfold mergeRowsHorizontal at h
    simp only [initialGroupCount_zero t arg sep.length hp, Option.some.injEq] at h
    subst h
    simp [hp]
  · by_cases hr : FullRows t items
    · rcases mergeH_run f t items arg sep compact (fun _ => false) fuel hp hr with ⟨_, _, h3⟩ | ⟨g, w, gw, hch, hw, h3⟩
      · rw [h3] at h; cases h
      · rw [h3] at h
        cases h
        have hg : 0 < g := by
          have := hch.atLeast
          have := plainGroups_pos (clamped arg) sep.length (pitch t sep.length)
          omega
        have := (printH_panic f t items sep g hg gw w hw).1 hr
        simp [this, hp, hr]
    · have := mergeH_short f t items arg sep compact fuel run hp hr h
      simp [this, hp, hr]

/-- C38. The same column by column. -/
theorem C38_vertical (f : Flags) (t : Table σ ι ν ε) (items : Items) (arg : Int) (sep : GoString)
    (compact : Bool) :
    let run := mergeRowsVertical f t items arg sep compact (fun _ => false)
    (run.panic = some .divideByZero ↔ pitch t sep.length % 65536 = 0) ∧
    (run.panic = some .index ↔ pitch t sep.length % 65536 ≠ 0 ∧ ¬ FullRows t items) ∧
    (run.panic = none ↔ pitch t sep.length % 65536 ≠ 0 ∧ FullRows t items) ∧
    (pitch t sep.length % 65536 = 0 → run.written = []) := by
  by_cases hp : pitch t sep.length % 65536 = 0
  · have h : mergeRowsVertical f t items arg sep compact (fun _ => false) = ⟨[], some .divideByZero⟩ := by
      have hz := initialGroupCount_zero t arg sep.length hp
      unfold mergeRowsVertical
      dsimp only
      split
      · rename_i q hq; rw [hz] at hq; cases hq; rfl
      · rename_i q hq; rw [hz] at hq; cases hq
    simp [h, hp]
  · by_cases hr : FullRows t items
    · obtain ⟨g, w, gw, hch, hw, h3⟩ := mergeV_run f t items arg sep compact (fun _ => false) hp hr
      rw [h3]
      have hg : 0 < g := by
        have := hch.atLeast
        have := plainGroups_pos (clamped arg) sep.length (pitch t sep.length)
        omega
      have := (printV_panic f t items sep g hg gw w hw).1 hr
      simp [this, hp, hr]
    · have := mergeV_short f t items arg sep compact hp hr
      simp [this, hp, hr]

/-- C38. Without columns both merges divide by zero, whatever the other arguments. -/
theorem C38_no_columns (f : Flags) (t : Table σ ι ν ε) (items : Items) (arg : Int) (sep : GoString)
    (compact : Bool) (fuel : Nat) (hc : t.columns = []) :
    mergeRowsHorizontal f t items arg sep compact (fun _ => false) fuel = some ⟨[], some .divideByZero⟩ ∧
    mergeRowsVertical f t items arg sep compact (fun _ => false) = ⟨[], some .divideByZero⟩ := by
  have hp : pitch t sep.length % 65536 = 0 := by simp [pitch, hc]
  constructor
  · unfold mergeRowsHorizontal
    simp only [initialGroupCount_zero t arg sep.length hp]
  · obtain ⟨h1, _, _, h4⟩ := C38_vertical f t items arg sep compact
    have h1 := h1.mpr hp
    have h4 := h4 hp
    revert h1 h4
    generalize mergeRowsVertical f t items arg sep compact (fun _ => false) = r
    intro h1 h4
    cases r
    simp_all

/-- No panic; a short row; a division by zero because of columns without width and an empty separator. -/
example : pitch exampleTable (lit "|").length % 65536 ≠ 0 ∧
    (mergeRowsHorizontal exampleFlags exampleTable exampleItems 20 (lit "|") true (fun _ => false) 9).map (·.panic) =
      some none ∧
    (mergeRowsVertical exampleFlags exampleTable
      { exampleItems with get := fun k => if k = 3 then [lit "only one"] else exampleItems.get k } 20 (lit "|") true
      (fun _ => false)).panic = some .index ∧
    (mergeRowsVertical exampleFlags { exampleTable with columnWidth := fun _ => 0 } exampleItems 20 [] true
      (fun _ => false)).panic = some .divideByZero := by decide +kernel

/-! ## C30, C31 -/

/-- C30. What a merge row by row prints, when it completes on a non-empty list. -/
theorem C30_horizontal (f : Flags) (t : Table σ ι ν ε) (items : Items) (arg : Int) (sep : GoString)
    (compact : Bool) (fuel : Nat) (run : MergeRun)
    (h : mergeRowsHorizontal f t items arg sep compact (fun _ => false) fuel = some run)
    (hrun : run.panic = none) (hn : 0 < items.len) :
    ∃ g w, 1 ≤ g ∧ Chosen f t items arg sep.length compact groupH (fun _ => True) g w ∧
      run.written = listingH f t.columns w sep (fun k => items.get k) items.len g := by
  obtain ⟨hp, hr⟩ := (C38_horizontal f t items arg sep compact fuel run h).2.2.1.mp hrun
  rcases mergeH_run f t items arg sep compact (fun _ => false) fuel hp hr with ⟨_, _, h3⟩ | ⟨g, w, gw, hch, hw, h3⟩
  · rw [h3] at h; cases h
  · rw [h3] at h
    cases h
    have hg : 0 < g := by
      have := hch.atLeast
      have := plainGroups_pos (clamped arg) sep.length (pitch t sep.length)
      omega
    exact ⟨g, w, hg, hch, by rw [printH_ok f t items sep g hg gw w hw hr hn]⟩

example : mergeRowsHorizontal exampleFlags exampleTable exampleItems 20 (lit "|") false (fun _ => false) 0 =
      some ⟨[lit "x     1|中文  2\n", lit "y    33|zz    4\n", lit "w     5|\n"], none⟩ ∧
    mergeRowsHorizontal exampleFlags exampleTable exampleItems 20 (lit "|") true (fun _ => false) 9 =
      some ⟨[lit "x 1|中文 2|y 33|zz 4\n", lit "w 5|\n"], none⟩ := by decide +kernel

/-- C30. Read line by line, the items come in order, each once. -/
theorem C30_each_once (n g : Nat) (hg : 0 < g) :
    (List.range (linesFor n g)).flatMap (onLineH n g) = List.range n := by
  have hle : n ≤ linesFor n g * g := by
    unfold linesFor
    have h1 := Nat.div_add_mod (n + g - 1) g
    have h2 := Nat.mod_lt (n + g - 1) hg
    rw [Nat.mul_comm]; omega
  have h1 : ∀ L : Nat, (List.range L).flatMap (onLineH n g) = (List.range (L * g)).filter (· < n) := by
    intro L
    induction L with
    | zero => simp
    | succ L ih =>
      rw [List.range_succ, List.flatMap_append, ih, Nat.succ_mul, List.range_add, List.filter_append]
      simp [onLineH]
  rw [h1]
  obtain ⟨d, hd⟩ : ∃ d, linesFor n g * g = n + d := ⟨_, (Nat.add_sub_cancel' hle).symm⟩
  rw [hd, List.range_add, List.filter_append]
  have h2 : (List.range n).filter (· < n) = List.range n := by
    rw [List.filter_eq_self]; intro a ha; simpa using ha
  have h3 : ((List.range d).map (n + ·)).filter (· < n) = [] := by
    rw [List.filter_eq_nil_iff]; intro a ha
    obtain ⟨b, _, rfl⟩ := List.mem_map.mp ha
    simp
  rw [h2, h3, List.append_nil]

/-- C31. What a merge column by column prints, when it completes on a non-empty list. -/
theorem C31_vertical (f : Flags) (t : Table σ ι ν ε) (items : Items) (arg : Int) (sep : GoString)
    (compact : Bool) (hrun : (mergeRowsVertical f t items arg sep compact (fun _ => false)).panic = none)
    (hn : 0 < items.len) :
    ∃ g w, 1 ≤ g ∧ Chosen f t items arg sep.length compact (groupV items.len) (usableV items.len) g w ∧
      (mergeRowsVertical f t items arg sep compact (fun _ => false)).written =
        listingV f t.columns w sep (fun k => items.get k) items.len g := by
  obtain ⟨hp, hr⟩ := (C38_vertical f t items arg sep compact).2.2.1.mp hrun
  obtain ⟨g, w, gw, hch, hw, h3⟩ := mergeV_run f t items arg sep compact (fun _ => false) hp hr
  have hg : 0 < g := by
    have := hch.atLeast
    have := plainGroups_pos (clamped arg) sep.length (pitch t sep.length)
    omega
  exact ⟨g, w, hg, hch, by rw [h3, printV_ok f t items sep g hg gw w hw hr hn]⟩

example : mergeRowsVertical exampleFlags exampleTable exampleItems 20 (lit "|") false (fun _ => false) =
      ⟨[lit "x     1|zz    4\n", lit "中文  2|w     5\n", lit "y    33|\n"], none⟩ ∧
    mergeRowsVertical exampleFlags exampleTable exampleItems 21 (lit "|") true (fun _ => false) =
      ⟨[lit "x    1|y  33|w 5\n", lit "中文 2|zz  4|\n"], none⟩ := by decide +kernel

example : (List.range (linesFor 7 3)).map (onLineH 7 3) = [[0, 1, 2], [3, 4, 5], [6]] ∧
    (List.range (linesFor 7 3)).map (onLineV 7 3 (linesFor 7 3)) = [[0, 3, 6], [1, 4], [2, 5]] := by decide

/-- C31. Every item is on exactly one line, once. -/
theorem C31_each_once (n g : Nat) (hn : 0 < n) (hg : 0 < g) :
    ((List.range (linesFor n g)).flatMap (onLineV n g (linesFor n g))).Perm (List.range n) := by
  have hL := linesFor_pos n g hn hg
  generalize hLd : linesFor n g = L at hL
  rw [List.perm_ext_iff_of_nodup]
  · intro k
    simp only [List.mem_flatMap, List.mem_range, onLineV, List.mem_filter, List.mem_map, decide_eq_true_eq]
    constructor
    · rintro ⟨_, _, _, h⟩; exact h
    · intro hk
      have hm := (mem_groupV n g k hk hg).1
      rw [hLd] at hm
      refine ⟨k % L, Nat.mod_lt _ hL, ⟨k / L, hm, ?_⟩, hk⟩
      have := Nat.div_add_mod k L
      rw [Nat.mul_comm]; omega
  · unfold List.Nodup
    rw [List.pairwise_flatMap]
    constructor
    · intro i _
      refine List.Pairwise.filter _ ?_
      rw [List.pairwise_map]
      refine List.Pairwise.imp ?_ List.pairwise_lt_range
      intro a b hab he
      have := (Nat.mul_lt_mul_right hL).mpr hab
      omega
    · refine List.Pairwise.imp_of_mem ?_ List.pairwise_lt_range
      intro i i' hi hi' hlt x hx y hy hxy
      subst hxy
      have hi := List.mem_range.mp hi
      have hi' := List.mem_range.mp hi'
      obtain ⟨⟨j, _, hj⟩, _⟩ := And.imp_left List.mem_map.mp (List.mem_filter.mp hx)
      obtain ⟨⟨j', _, hj'⟩, _⟩ := And.imp_left List.mem_map.mp (List.mem_filter.mp hy)
      have h1 : x % L = i := by rw [← hj, Nat.mul_comm, Nat.mul_add_mod, Nat.mod_eq_of_lt hi]
      have h2 : x % L = i' := by rw [← hj', Nat.mul_comm, Nat.mul_add_mod, Nat.mod_eq_of_lt hi']
      omega
  · exact List.nodup_range

/-- An empty list: nothing is printed with one group, one empty line with more. -/
theorem C30_empty (f : Flags) (t : Table σ ι ν ε) (items : Items) (arg : Int) (sep : GoString)
    (compact : Bool) (fuel : Nat) (run : MergeRun)
    (h : mergeRowsHorizontal f t items arg sep compact (fun _ => false) fuel = some run)
    (hrun : run.panic = none) (hn : items.len = 0) :
    ∃ g w, 1 ≤ g ∧ Chosen f t items arg sep.length compact groupH (fun _ => True) g w ∧
      run.written = if g = 1 then [] else [[0x0A]] := by
  obtain ⟨hp, hr⟩ := (C38_horizontal f t items arg sep compact fuel run h).2.2.1.mp hrun
  rcases mergeH_run f t items arg sep compact (fun _ => false) fuel hp hr with ⟨_, _, h3⟩ | ⟨g, w, gw, hch, hw, h3⟩
  · rw [h3] at h; cases h
  · rw [h3] at h
    cases h
    have hg : 0 < g := by
      have := hch.atLeast
      have := plainGroups_pos (clamped arg) sep.length (pitch t sep.length)
      omega
    refine ⟨g, w, hg, hch, ?_⟩
    unfold printH
    rw [hn]
    split
    · rename_i h1
      rw [h1]
      dsimp only
      rw [show (lineCountOf 0 1).toNat = 0 by decide, writeLines, if_neg (by omega)]
    · have hlc : lineCountOf 0 g = 1 := by
        unfold lineCountOf
        obtain ⟨k, rfl⟩ : ∃ k, g = k + 2 := ⟨g - 2, by omega⟩
        rw [show ((0 : Nat) : Int) - 1 = -1 by omega, Int.neg_tdiv, Int.tdiv_eq_ediv_of_nonneg (by omega),
          Int.ediv_eq_zero_of_lt (by omega) (by omega)]
        rfl
      rw [hlc]
      have hl : lineGroups f t items gw (indexH g 0) g 0 = .ok [[]] := by
        rw [lineGroups, if_pos hg, hn]; simp
      show (writeLines sep _ _ 1 0).written = _
      rw [writeLines, if_pos (by omega)]
      simp only [hl]
      rw [writeLines]
      simp [join, lit_newline]

/-- The same column by column; there compaction adds no group. -/
theorem C31_empty (f : Flags) (t : Table σ ι ν ε) (items : Items) (arg : Int) (sep : GoString)
    (compact : Bool) (hrun : (mergeRowsVertical f t items arg sep compact (fun _ => false)).panic = none)
    (hn : items.len = 0) :
    (mergeRowsVertical f t items arg sep compact (fun _ => false)).written =
      if plainGroups (clamped arg) sep.length (pitch t sep.length) = 1 then [] else [[0x0A]] := by
  obtain ⟨hp, hr⟩ := (C38_vertical f t items arg sep compact).2.2.1.mp hrun
  obtain ⟨g, w, gw, hch, hw, h3⟩ := mergeV_run f t items arg sep compact (fun _ => false) hp hr
  rw [h3]
  have hg0 : plainGroups (clamped arg) sep.length (pitch t sep.length) = g := by
    rcases Nat.lt_or_ge (plainGroups (clamped arg) sep.length (pitch t sep.length)) g with hlt | hge
    · have := (hch.fits g hlt (Nat.le_refl _)).1
      unfold usableV at this
      omega
    · have := hch.atLeast; omega
  have hg : 0 < g := by
    have := plainGroups_pos (clamped arg) sep.length (pitch t sep.length)
    omega
  rw [hg0]
  unfold printV
  rw [hn]
  split
  · rename_i h1
    rw [h1]
    dsimp only
    rw [show (lineCountOf 0 1).toNat = 0 by decide, writeLines, if_neg (by omega)]
  · have hlc : lineCountOf 0 g = 1 := by
      unfold lineCountOf
      obtain ⟨k, rfl⟩ : ∃ k, g = k + 2 := ⟨g - 2, by omega⟩
      rw [show ((0 : Nat) : Int) - 1 = -1 by omega, Int.neg_tdiv, Int.tdiv_eq_ediv_of_nonneg (by omega),
        Int.ediv_eq_zero_of_lt (by omega) (by omega)]
      rfl
    rw [hlc]
    have hl : lineGroups f t items gw (indexV 1 0) g 0 = .ok [[]] := by
      rw [lineGroups, if_pos hg, hn]; simp
    show (writeLines sep (fun lineI => lineGroups f t items gw (indexV 1 lineI) g 0) _ 1 0).written = _
    rw [writeLines, if_pos (by omega)]
    simp only [hl]
    rw [writeLines]
    simp [join, lit_newline]

/-- Both outcomes for an empty list. -/
example : mergeRowsHorizontal exampleFlags exampleTable ⟨0, fun _ => []⟩ 10 (lit "|") false (fun _ => false) 0 =
      some ⟨[], none⟩ ∧
    mergeRowsHorizontal exampleFlags exampleTable ⟨0, fun _ => []⟩ 20 (lit "|") false (fun _ => false) 0 =
      some ⟨[lit "\n"], none⟩ ∧
    mergeRowsVertical exampleFlags exampleTable ⟨0, fun _ => []⟩ 10 (lit "|") true (fun _ => false) = ⟨[], none⟩ ∧
    mergeRowsVertical exampleFlags exampleTable ⟨0, fun _ => []⟩ 20 (lit "|") true (fun _ => false) =
      ⟨[lit "\n"], none⟩ := by decide +kernel

/-! ## C35 -/

/-- C35. Row by row: between the plain number of groups and the one used everything fits, the next does
not. -/
theorem C35_horizontal (f : Flags) (t : Table σ ι ν ε) (items : Items) (arg : Int) (sep : GoString)
    (fuel : Nat) (run : MergeRun)
    (h : mergeRowsHorizontal f t items arg sep true (fun _ => false) fuel = some run)
    (hrun : run.panic = none) (hn : 0 < items.len) :
    ∃ g0 g w0 w, g0 = plainGroups (clamped arg) sep.length (pitch t sep.length) ∧ g0 ≤ g ∧
      mergeRowsHorizontal f t items arg sep false (fun _ => false) fuel =
        some ⟨listingH f t.columns w0 sep (fun k => items.get k) items.len g0, none⟩ ∧
      run.written = listingH f t.columns w sep (fun k => items.get k) items.len g ∧
      (∀ G, g0 < G → G ≤ g → Fits (visualWidth f) (fun k => items.get k) items.len t.columns.length sep.length
        (clamped arg) groupH G) ∧
      ¬ Fits (visualWidth f) (fun k => items.get k) items.len t.columns.length sep.length (clamped arg) groupH
        (g + 1) ∧
      (g0 < g → WidestCells (visualWidth f) (fun k => items.get k) items.len t.columns.length g (· % g) w) := by
  obtain ⟨g, w, hg, hch, hwr⟩ := C30_horizontal f t items arg sep true fuel run h hrun hn
  obtain ⟨hp, hr⟩ := (C38_horizontal f t items arg sep true fuel run h).2.2.1.mp hrun
  rcases mergeH_run f t items arg sep false (fun _ => false) fuel hp hr with ⟨h0, _, _⟩ | ⟨g0, w0, gw, hch0, hw, h3⟩
  · cases h0
  · have hg0 := hch0.plain rfl
    have hpos := plainGroups_pos (clamped arg) sep.length (pitch t sep.length)
    refine ⟨g0, g, w0, w, hg0, by have := hch.atLeast; omega, ?_, hwr, ?_, ?_, ?_⟩
    · rw [h3, printH_ok f t items sep g0 (by omega) gw w0 hw hr hn]
    · intro G h1 h2
      exact (hch.fits G (by omega) h2).2
    · intro hx
      exact hch.stop rfl ⟨trivial, hx⟩
    · intro hlt
      exact hch.widest (by omega)

/-- C35. Column by column: the next number of groups does not fit or leaves its last group empty. -/
theorem C35_vertical (f : Flags) (t : Table σ ι ν ε) (items : Items) (arg : Int) (sep : GoString)
    (hrun : (mergeRowsVertical f t items arg sep true (fun _ => false)).panic = none)
    (hn : 0 < items.len) :
    ∃ g0 g w0 w, g0 = plainGroups (clamped arg) sep.length (pitch t sep.length) ∧ g0 ≤ g ∧
      mergeRowsVertical f t items arg sep false (fun _ => false) =
        ⟨listingV f t.columns w0 sep (fun k => items.get k) items.len g0, none⟩ ∧
      (mergeRowsVertical f t items arg sep true (fun _ => false)).written =
        listingV f t.columns w sep (fun k => items.get k) items.len g ∧
      (∀ G, g0 < G → G ≤ g → (G - 1) * linesFor items.len G < items.len ∧
        Fits (visualWidth f) (fun k => items.get k) items.len t.columns.length sep.length
          (clamped arg) (groupV items.len) G) ∧
      (items.len ≤ g * linesFor items.len (g + 1) ∨
        ¬ Fits (visualWidth f) (fun k => items.get k) items.len t.columns.length sep.length (clamped arg)
          (groupV items.len) (g + 1)) ∧
      (g0 < g → WidestCells (visualWidth f) (fun k => items.get k) items.len t.columns.length g
        (· / linesFor items.len g) w) := by
  obtain ⟨g, w, hg, hch, hwr⟩ := C31_vertical f t items arg sep true hrun hn
  obtain ⟨hp, hr⟩ := (C38_vertical f t items arg sep true).2.2.1.mp hrun
  obtain ⟨g0, w0, gw, hch0, hw, h3⟩ := mergeV_run f t items arg sep false (fun _ => false) hp hr
  have hg0 := hch0.plain rfl
  have hpos := plainGroups_pos (clamped arg) sep.length (pitch t sep.length)
  refine ⟨g0, g, w0, w, hg0, by have := hch.atLeast; omega, ?_, hwr, ?_, ?_, ?_⟩
  · rw [h3, printV_ok f t items sep g0 (by omega) gw w0 hw hr hn]
  · intro G h1 h2
    exact hch.fits G (by omega) h2
  · rcases Nat.lt_or_ge (g * linesFor items.len (g + 1)) items.len with hlt | hge
    · exact Or.inr fun hx => hch.stop rfl ⟨hlt, hx⟩
    · exact Or.inl hge
  · intro hlt
    exact hch.widest (by omega)

/-- Row by row width 20 goes from 2 groups to 4. Column by column width 30 stays at 3: a fourth group would
be empty; width 21 goes from 2 groups to 3, and width 12 from 1 to 2, where a third does not fit. -/
example : (mergeRowsHorizontal exampleFlags exampleTable exampleItems 20 (lit "|") true (fun _ => false) 9).map
      (·.written.length) = some 2 ∧
    plainGroups (clamped 20) 1 (pitch exampleTable 1) = 2 ∧
    (mergeRowsVertical exampleFlags exampleTable exampleItems 30 (lit "|") true (fun _ => false)).written =
      [lit "x     1|y    33|w     5\n", lit "中文  2|zz    4|\n"] ∧
    (mergeRowsVertical exampleFlags exampleTable exampleItems 12 (lit "|") true (fun _ => false)).written =
      [lit "x     1|zz 4\n", lit "中文  2|w  5\n", lit "y    33|\n"] := by decide +kernel

/-! ## C36 -/

/-- C36. Column by column the merge is a total function (its definition needs no bound on the number of
rounds), and uses no more groups than the plain number or the number of items. -/
theorem C36_groups (f : Flags) (t : Table σ ι ν ε) (items : Items) (arg : Int) (sep : GoString)
    (hrun : (mergeRowsVertical f t items arg sep true (fun _ => false)).panic = none)
    (hn : 0 < items.len) :
    ∃ g w, Chosen f t items arg sep.length true (groupV items.len) (usableV items.len) g w ∧
      plainGroups (clamped arg) sep.length (pitch t sep.length) ≤ g ∧
      g ≤ max (plainGroups (clamped arg) sep.length (pitch t sep.length)) items.len ∧
      (mergeRowsVertical f t items arg sep true (fun _ => false)).written =
        listingV f t.columns w sep (fun k => items.get k) items.len g := by
  obtain ⟨g, w, hg, hch, hwr⟩ := C31_vertical f t items arg sep true hrun hn
  refine ⟨g, w, hch, hch.atLeast, ?_, hwr⟩
  by_cases hlt : plainGroups (clamped arg) sep.length (pitch t sep.length) < g
  · have hu : (g - 1) * linesFor items.len g < items.len := (hch.fits g hlt (Nat.le_refl _)).1
    have hL := linesFor_pos items.len g hn (by omega)
    have : (g - 1) * 1 ≤ (g - 1) * linesFor items.len g := Nat.mul_le_mul_left _ hL
    omega
  · omega

/-- The bound is reached: one column, five groups for five items. -/
example : (mergeRowsVertical exampleFlags { exampleTable with columns := [exampleColumn 0 "a" none] } exampleItems 21
    (lit "|") true (fun _ => false)).written = [lit "x|中文|y|zz|w\n"] := by decide +kernel

/-! ## C37 -/

/-- C37. The search row by row ends if one more group, once the items have run out, adds a positive width
that still fits above the maximum. -/
theorem C37_ends (f : Flags) (t : Table σ ι ν ε) (items : Items) (arg : Int) (sep : GoString) (compact : Bool)
    (fails : Nat → Bool)
    (hd : 0 < (sep.length + (t.columns.length - 1)) % 65536)
    (hm : (sep.length + (t.columns.length - 1)) % 65536 + clamped arg ≤ 65535) :
    ∃ fuel, ∀ fuel' ≥ fuel, ∃ run, mergeRowsHorizontal f t items arg sep compact fails fuel' = some run := by
  by_cases hp : pitch t sep.length % 65536 = 0
  · refine ⟨0, fun fuel' _ => ⟨⟨[], some .divideByZero⟩, ?_⟩⟩
    unfold mergeRowsHorizontal
    simp only [initialGroupCount_zero t arg sep.length hp]
  by_cases hr : FullRows t items
  · obtain ⟨k, _, hk⟩ := exists_misfit f t items (clamped arg) sep.length
      (max items.len (plainGroups (clamped arg) sep.length (pitch t sep.length)) + 1) hr (by omega) (by omega) hd hm
    refine ⟨max items.len (plainGroups (clamped arg) sep.length (pitch t sep.length)) + 1 + k, fun fuel' hf => ?_⟩
    rcases mergeH_run f t items arg sep compact fails fuel' hp hr with ⟨_, h2, _⟩ | ⟨g, w, gw, _, _, h3⟩
    · exfalso
      refine hk ?_
      have := h2 (max items.len (plainGroups (clamped arg) sep.length (pitch t sep.length)) + k -
        plainGroups (clamped arg) sep.length (pitch t sep.length)) (by
          have := plainGroups_pos (clamped arg) sep.length (pitch t sep.length); omega)
      rw [show plainGroups (clamped arg) sep.length (pitch t sep.length) +
        (max items.len (plainGroups (clamped arg) sep.length (pitch t sep.length)) + k -
        plainGroups (clamped arg) sep.length (pitch t sep.length)) + 1 =
        max items.len (plainGroups (clamped arg) sep.length (pitch t sep.length)) + 1 + k by omega] at this
      exact this
    · exact ⟨_, h3⟩
  · refine ⟨1, fun fuel' hf => ?_⟩
    unfold mergeRowsHorizontal
    simp only [initialGroupCount_ok t arg sep.length hp]
    cases compact with
    | false => exact ⟨_, rfl⟩
    | true =>
      obtain ⟨n, rfl⟩ : ∃ n, fuel' = n + 1 := ⟨fuel' - 1, by omega⟩
      rw [compactCalcH_short f t items _ _ _ n hr]
      exact ⟨_, rfl⟩

theorem never_of_fits (f : Flags) (t : Table σ ι ν ε) (items : Items) (arg : Int) (sep : GoString)
    (fails : Nat → Bool) (fuel : Nat) (hp : pitch t sep.length % 65536 ≠ 0) (hr : FullRows t items)
    (hfit : ∀ G, plainGroups (clamped arg) sep.length (pitch t sep.length) < G →
      fitsH f t items (clamped arg) sep.length G) :
    mergeRowsHorizontal f t items arg sep true fails fuel = none := by
  unfold mergeRowsHorizontal
  simp only [initialGroupCount_ok t arg sep.length hp, if_true]
  unfold compactCalcH
  rw [compactLoopH_none f t items arg sep.length _ fuel 0 [] hr (columns_of_pitch hp)
    (fun k _ _ => hfit _ (by omega))]

/-- C37. With 65535, anything larger or −1 as the width the compact search never ends. -/
theorem C37_never_widest (f : Flags) (t : Table σ ι ν ε) (items : Items) (arg : Int) (sep : GoString)
    (fails : Nat → Bool) (fuel : Nat) (hp : pitch t sep.length % 65536 ≠ 0) (hr : FullRows t items)
    (harg : 65535 ≤ arg ∨ arg = -1) :
    mergeRowsHorizontal f t items arg sep true fails fuel = none := by
  refine never_of_fits f t items arg sep fails fuel hp hr fun G _ => ?_
  have : clamped arg = 65535 := by unfold clamped; omega
  unfold fitsH
  omega

/-- C37. With one column, an empty separator and room for all items on one line it never ends either. -/
theorem C37_never_narrow (f : Flags) (t : Table σ ι ν ε) (items : Items) (arg : Int)
    (fails : Nat → Bool) (fuel : Nat) (hp : pitch t 0 % 65536 ≠ 0) (hr : FullRows t items)
    (hc : t.columns.length = 1)
    (hsum : ((List.range items.len).map fun k : Nat => (visualWidth f ((items.get k)[0]?.getD [])).toNat).sum ≤
      clamped arg) :
    mergeRowsHorizontal f t items arg [] true fails fuel = none :=
  never_of_fits f t items arg [] fails fuel hp hr fun G hG => fitsH_narrow f t items _ G (by omega) hr hc hsum

/-- C37. Exactly: the search ends if and only if some number of groups does not fit, and then one not
above `max n g0 + 65536` does not. -/
theorem C37_exact (f : Flags) (t : Table σ ι ν ε) (items : Items) (arg : Int) (sep : GoString)
    (fails : Nat → Bool) (hp : pitch t sep.length % 65536 ≠ 0) (hr : FullRows t items) :
    (∃ fuel run, mergeRowsHorizontal f t items arg sep true fails fuel = some run) ↔
      ∃ G, plainGroups (clamped arg) sep.length (pitch t sep.length) < G ∧
        G ≤ max items.len (plainGroups (clamped arg) sep.length (pitch t sep.length)) + 65536 ∧
        ¬ Fits (visualWidth f) (fun k => items.get k) items.len t.columns.length sep.length (clamped arg) groupH
          G := by
  generalize hg0 : plainGroups (clamped arg) sep.length (pitch t sep.length) = g0
  simp only [← fitsH_iff f t items _ _ _ hr]
  constructor
  · rintro ⟨fuel, run, h⟩
    refine Classical.byContradiction fun hc => ?_
    have hall : ∀ G, g0 < G → fitsH f t items (clamped arg) sep.length G := by
      intro G
      induction G using Nat.strongRecOn with
      | ind G ih =>
        intro hG
        by_cases hle : G ≤ max items.len g0 + 65536
        · exact Classical.byContradiction fun hn => hc ⟨G, hG, hle, hn⟩
        · have h1 := ih (G - 65536) (by omega) (by omega)
          have h2 := fullWidth_past_add f t items sep.length (G - 65536) 65536 hr (by omega) (by omega)
          rw [Nat.sub_add_cancel (by omega)] at h2
          unfold fitsH at h1 ⊢
          rw [h2]
          omega
    rw [never_of_fits f t items arg sep fails fuel hp hr (by rw [hg0]; exact hall)] at h
    cases h
  · rintro ⟨G, hG, _, hn⟩
    refine ⟨G - g0, ?_⟩
    rcases mergeH_run f t items arg sep true fails (G - g0) hp hr with ⟨_, h2, _⟩ | ⟨g, w, gw, _, _, h3⟩
    · exfalso
      have := h2 (G - g0 - 1) (by omega)
      rw [hg0, show g0 + (G - g0 - 1) + 1 = G by omega] at this
      exact hn this
    · exact ⟨_, h3⟩

/-- The example ends for every width up to 65533, and never for 65535. -/
example : (∀ arg : Int, 0 ≤ arg → arg ≤ 65533 → ∃ fuel, ∀ fuel' ≥ fuel, ∃ run,
      mergeRowsHorizontal exampleFlags exampleTable exampleItems arg (lit "|") true (fun _ => false) fuel' =
        some run) ∧
    (∀ fuel, mergeRowsHorizontal exampleFlags exampleTable exampleItems 65535 (lit "|") true (fun _ => false) fuel =
      none) := by
  have h1 : (lit "|").length + (exampleTable.columns.length - 1) = 2 := by decide +kernel
  refine ⟨fun arg h0 hle => ?_, fun fuel => ?_⟩
  · exact C37_ends _ _ _ _ _ _ _ (by rw [h1]; decide) (by rw [h1]; unfold clamped; omega)
  · exact C37_never_widest _ _ _ _ _ _ _ (by decide +kernel) exampleItems_full (by omega)

/-- One column and an empty separator never end at width 9, the width of all items together. -/
example (fuel : Nat) : mergeRowsHorizontal exampleFlags { exampleTable with columns := [exampleColumn 0 "a" none] }
    exampleItems 9 [] true (fun _ => false) fuel = none := by
  refine C37_never_narrow _ _ _ _ _ _ (by decide +kernel) (fun k hk => ?_) rfl (by decide +kernel)
  have := exampleItems_full k hk
  have h2 : exampleTable.columns.length = 2 := rfl
  have h1 : ({ exampleTable with columns := [exampleColumn 0 "a" none] } :
    Table Nat (List (Option GoString)) GoString Nat).columns.length = 1 := rfl
  omega

/-! ## C39 -/

/-- C39. Row by row: the run against any writer is the run against a never-failing one, cut after the
first failing write. -/
theorem C39_horizontal (f : Flags) (t : Table σ ι ν ε) (items : Items) (arg : Int) (sep : GoString)
    (compact : Bool) (fails : Nat → Bool) (fuel : Nat) :
    (mergeRowsHorizontal f t items arg sep compact (fun _ => false) fuel = none →
      mergeRowsHorizontal f t items arg sep compact fails fuel = none) ∧
    ∀ run, mergeRowsHorizontal f t items arg sep compact (fun _ => false) fuel = some run →
      (∀ k, k < run.written.length → (∀ k' < k, fails k' = false) → fails k = true →
        mergeRowsHorizontal f t items arg sep compact fails fuel =
          some ⟨run.written.take (k + 1), some .write⟩) ∧
      ((∀ k < run.written.length, fails k = false) →
        mergeRowsHorizontal f t items arg sep compact fails fuel = some run) := by
  have hprint : ∀ g gw, let r := printH f t items sep (fun _ => false) g gw
      (∀ k, k < r.written.length → (∀ k' < k, fails k' = false) → fails k = true →
        printH f t items sep fails g gw = ⟨r.written.take (k + 1), some .write⟩) ∧
      ((∀ k < r.written.length, fails k = false) → printH f t items sep fails g gw = r) := by
    intro g gw
    have := writeLines_fails sep (fun lineI => lineGroups f t items gw (indexH g lineI) g 0) fails
      (lineCountOf items.len g).toNat 0
    dsimp only at this
    simp only [Nat.zero_add] at this
    exact this
  have hfin : ∀ g gw run, some (printH f t items sep (fun _ => false) g gw) = some run →
      (∀ k, k < run.written.length → (∀ k' < k, fails k' = false) → fails k = true →
        some (printH f t items sep fails g gw) = some ⟨run.written.take (k + 1), some .write⟩) ∧
      ((∀ k < run.written.length, fails k = false) → some (printH f t items sep fails g gw) = some run) := by
    intro g gw run h
    cases h
    exact ⟨fun k h1 h2 h3 => congrArg some ((hprint g gw).1 k h1 h2 h3), fun h => congrArg some ((hprint g gw).2 h)⟩
  unfold mergeRowsHorizontal
  dsimp only
  split
  · refine ⟨by simp, fun run h => ?_⟩
    cases h
    exact ⟨fun k hk => by simp at hk, fun _ => rfl⟩
  · split
    · split
      · exact ⟨fun _ => rfl, fun run h => by cases h⟩
      · refine ⟨by simp, fun run h => ?_⟩
        cases h
        exact ⟨fun k hk => by simp at hk, fun _ => rfl⟩
      · split
        · exact ⟨by simp, fun run h => hfin _ _ run h⟩
        · exact ⟨by simp, fun run h => hfin _ _ run h⟩
    · exact ⟨by simp, fun run h => hfin _ _ run h⟩

/-- C39. The same column by column. -/
theorem C39_vertical (f : Flags) (t : Table σ ι ν ε) (items : Items) (arg : Int) (sep : GoString)
    (compact : Bool) (fails : Nat → Bool) :
    let run := mergeRowsVertical f t items arg sep compact (fun _ => false)
    (∀ k, k < run.written.length → (∀ k' < k, fails k' = false) → fails k = true →
      mergeRowsVertical f t items arg sep compact fails = ⟨run.written.take (k + 1), some .write⟩) ∧
    ((∀ k < run.written.length, fails k = false) →
      mergeRowsVertical f t items arg sep compact fails = run) := by
  have hprint : ∀ g gw, let r := printV f t items sep (fun _ => false) g gw
      (∀ k, k < r.written.length → (∀ k' < k, fails k' = false) → fails k = true →
        printV f t items sep fails g gw = ⟨r.written.take (k + 1), some .write⟩) ∧
      ((∀ k < r.written.length, fails k = false) → printV f t items sep fails g gw = r) := by
    intro g gw
    have := writeLines_fails sep
      (fun lineI => lineGroups f t items gw (indexV (lineCountOf items.len g).toNat lineI) g 0) fails
      (lineCountOf items.len g).toNat 0
    dsimp only at this
    simp only [Nat.zero_add] at this
    exact this
  rcases hg : initialGroupCount t (maxWidthOf arg) (u16 sep.length) with p | g0
  · have key : ∀ fails, mergeRowsVertical f t items arg sep compact fails = ⟨[], some p⟩ := by
      intro fails
      unfold mergeRowsVertical
      dsimp only
      split
      · rename_i q hq; rw [hg] at hq; cases hq; rfl
      · rename_i q hq; rw [hg] at hq; cases hq
    simp only [key]
    exact ⟨fun k hk => by simp at hk, fun _ => trivial⟩
  · simp only [mergeV_eq f t items arg sep compact _ g0 hg]
    split
    · split
      · exact ⟨fun k hk => by simp at hk, fun _ => rfl⟩
      · split
        · exact hprint _ _
        · exact hprint _ _
    · exact hprint _ _

/-- The second write fails: two lines were handed over. -/
example : mergeRowsHorizontal exampleFlags exampleTable exampleItems 20 (lit "|") false (fun k => k == 1) 0 =
      some ⟨[lit "x     1|中文  2\n", lit "y    33|zz    4\n"], some .write⟩ ∧
    mergeRowsVertical exampleFlags exampleTable exampleItems 20 (lit "|") false (fun k => k == 0) =
      ⟨[lit "x     1|zz    4\n"], some .write⟩ := by decide +kernel

/-! ## C40 -/

/-- C40. Arguments from 65535 on act like 65535, negative ones like their residue modulo 2^16. -/
theorem C40_clamp (f : Flags) (t : Table σ ι ν ε) (items : Items) (arg : Int) (sep : GoString)
    (compact : Bool) (fails : Nat → Bool) (fuel : Nat) :
    (65535 ≤ arg →
      mergeRowsHorizontal f t items arg sep compact fails fuel =
        mergeRowsHorizontal f t items 65535 sep compact fails fuel ∧
      mergeRowsVertical f t items arg sep compact fails = mergeRowsVertical f t items 65535 sep compact fails) ∧
    (arg < 0 →
      mergeRowsHorizontal f t items arg sep compact fails fuel =
        mergeRowsHorizontal f t items (arg % 65536) sep compact fails fuel ∧
      mergeRowsVertical f t items arg sep compact fails =
        mergeRowsVertical f t items (arg % 65536) sep compact fails) := by
  have key : ∀ a b, clamped a = clamped b →
      mergeRowsHorizontal f t items a sep compact fails fuel =
        mergeRowsHorizontal f t items b sep compact fails fuel ∧
      mergeRowsVertical f t items a sep compact fails = mergeRowsVertical f t items b sep compact fails := by
    intro a b hab
    have : maxWidthOf a = maxWidthOf b := by
      rw [← UInt16.toNat_inj, maxWidthOf_toNat, maxWidthOf_toNat, hab]
    unfold mergeRowsHorizontal mergeRowsVertical
    rw [this]
    exact ⟨rfl, rfl⟩
  constructor
  · intro h; exact key _ _ (by unfold clamped; omega)
  · intro h; exact key _ _ (by unfold clamped; omega)

theorem plainGroups_mono {a b sepLen p : Nat} (hab : a ≤ b) (hb : b + sepLen ≤ 65535) :
    plainGroups a sepLen p ≤ plainGroups b sepLen p := by
  unfold plainGroups
  rw [Nat.mod_eq_of_lt (a := a + sepLen) (by omega), Nat.mod_eq_of_lt (a := b + sepLen) (by omega)]
  have := Nat.div_le_div_right (c := p % 65536) (show a + sepLen ≤ b + sepLen by omega)
  omega

theorem chosen_mono {f : Flags} {t : Table σ ι ν ε} {items : Items} {a b : Int} {sepLen : Nat}
    {compact : Bool} {groupOf : Nat → Nat → Nat} {usable : Nat → Prop} {ga gb : Nat} {wa wb : Nat → Nat → UInt16}
    (ha : Chosen f t items a sepLen compact groupOf usable ga wa)
    (hb : Chosen f t items b sepLen compact groupOf usable gb wb) (h0 : 0 ≤ a) (hab : a ≤ b)
    (hle : b + sepLen ≤ 65535) : ga ≤ gb := by
  have hcl : clamped a ≤ clamped b ∧ clamped b + sepLen ≤ 65535 := by unfold clamped; omega
  have hpg := plainGroups_mono (p := pitch t sepLen) hcl.1 hcl.2
  have h1 := ha.atLeast
  have h2 := hb.atLeast
  cases compact with
  | false =>
    have h3 := ha.plain rfl
    have h4 := hb.plain rfl
    omega
  | true =>
    refine Nat.le_of_not_lt fun hlt => ?_
    obtain ⟨hu, w, hw1, hw2⟩ := ha.fits (gb + 1) (by omega) (by omega)
    exact hb.stop rfl ⟨hu, w, hw1, by omega⟩

theorem linesFor_antitone (n a b : Nat) (ha : 0 < a) (hab : a ≤ b) : linesFor n b ≤ linesFor n a := by
  unfold linesFor
  rw [Nat.div_le_iff_le_mul_add_pred (by omega)]
  have h1 := Nat.div_add_mod (n + a - 1) a
  have h2 := Nat.mod_lt (n + a - 1) ha
  have h3 : (n + a - 1) / a * a ≤ (n + a - 1) / a * b := Nat.mul_le_mul_left _ hab
  rw [Nat.mul_comm] at h1
  rw [Nat.mul_comm b]
  omega

/-- C40. Row by row, a wider line never gives fewer groups or more lines. -/
theorem C40_monotone_horizontal (f : Flags) (t : Table σ ι ν ε) (items : Items) (a b : Int) (sep : GoString)
    (compact : Bool) (fuel : Nat) (ra rb : MergeRun) (h0 : 0 ≤ a) (hab : a ≤ b)
    (hb : b + sep.length ≤ 65535) (hn : 0 < items.len)
    (ha : mergeRowsHorizontal f t items a sep compact (fun _ => false) fuel = some ra)
    (hb' : mergeRowsHorizontal f t items b sep compact (fun _ => false) fuel = some rb)
    (hpa : ra.panic = none) (hpb : rb.panic = none) :
    rb.written.length ≤ ra.written.length ∧ ∃ ga gb wa wb, ga ≤ gb ∧
      ra.written = listingH f t.columns wa sep (fun k => items.get k) items.len ga ∧
      rb.written = listingH f t.columns wb sep (fun k => items.get k) items.len gb := by
  obtain ⟨ga, wa, hga, hca, hwa⟩ := C30_horizontal f t items a sep compact fuel ra ha hpa hn
  obtain ⟨gb, wb, hgb, hcb, hwb⟩ := C30_horizontal f t items b sep compact fuel rb hb' hpb hn
  have hle := chosen_mono hca hcb h0 hab hb
  refine ⟨?_, ga, gb, wa, wb, hle, hwa, hwb⟩
  rw [hwa, hwb]
  simpa [listingH] using linesFor_antitone items.len ga gb hga hle

/-- C40. The same column by column. -/
theorem C40_monotone_vertical (f : Flags) (t : Table σ ι ν ε) (items : Items) (a b : Int) (sep : GoString)
    (compact : Bool) (h0 : 0 ≤ a) (hab : a ≤ b) (hb : b + sep.length ≤ 65535) (hn : 0 < items.len)
    (hpa : (mergeRowsVertical f t items a sep compact (fun _ => false)).panic = none)
    (hpb : (mergeRowsVertical f t items b sep compact (fun _ => false)).panic = none) :
    (mergeRowsVertical f t items b sep compact (fun _ => false)).written.length ≤
      (mergeRowsVertical f t items a sep compact (fun _ => false)).written.length ∧
    ∃ ga gb wa wb, ga ≤ gb ∧
      (mergeRowsVertical f t items a sep compact (fun _ => false)).written =
        listingV f t.columns wa sep (fun k => items.get k) items.len ga ∧
      (mergeRowsVertical f t items b sep compact (fun _ => false)).written =
        listingV f t.columns wb sep (fun k => items.get k) items.len gb := by
  obtain ⟨ga, wa, hga, hca, hwa⟩ := C31_vertical f t items a sep compact hpa hn
  obtain ⟨gb, wb, hgb, hcb, hwb⟩ := C31_vertical f t items b sep compact hpb hn
  have hle := chosen_mono hca hcb h0 hab hb
  refine ⟨?_, ga, gb, wa, wb, hle, hwa, hwb⟩
  rw [hwa, hwb]
  simpa [listingV] using linesFor_antitone items.len ga gb hga hle

/-- The widths 10, 20 and 65530 for the example; and just beyond the range the number of groups falls
back to one. -/
example : (mergeRowsVertical exampleFlags exampleTable exampleItems 10 (lit "|") false (fun _ => false)).written.length = 5 ∧
    (mergeRowsVertical exampleFlags exampleTable exampleItems 20 (lit "|") false (fun _ => false)).written.length = 3 ∧
    plainGroups (clamped 65534) 1 (pitch exampleTable 1) = 8191 ∧
    plainGroups (clamped 65535) 1 (pitch exampleTable 1) = 1 := by decide +kernel

/-! ## C49 -/

/-- C49. A merge depends on the table only through the alignment in force and the recorded width of each column, and on the
items only through rows `0 .. Len-1`. -/
theorem C49_depends (f : Flags) (t : Table σ ι ν ε) (t' : Table σ' ι' ν' ε') (items items' : Items)
    (h : columnView f t = columnView f t') (hlen : items.len = items'.len)
    (hrow : ∀ k : Nat, k < items.len → items.get k = items'.get k) (arg : Int) (sep : GoString) (compact : Bool)
    (fails : Nat → Bool) (fuel : Nat) :
    mergeRowsHorizontal f t items arg sep compact fails fuel =
      mergeRowsHorizontal f t' items' arg sep compact fails fuel ∧
    mergeRowsVertical f t items arg sep compact fails =
      mergeRowsVertical f t' items' arg sep compact fails :=
  ⟨mergeH_view f h hlen hrow arg sep compact fails fuel, mergeV_view f h hlen hrow arg sep compact fails⟩

/-- Other names, titles and getters, other rows outside the range: the hypotheses hold. -/
example : columnView exampleFlags exampleTable = columnView exampleFlags ({
      columns := [{ exampleColumn 7 "a" none with title := lit "other" },
        { exampleColumn 8 "c" none with alignment := some (alignmentRight exampleFlags) }]
      columnWidth := fun n => if n = lit "c" then 2 else 4 } : Table Nat (List (Option GoString)) GoString Nat) ∧
    ∀ k : Nat, k < 5 → exampleItems.get k = (fun k : Int => if k < 5 then exampleItems.get k else [lit "?"]) k := by
  refine ⟨?_, fun k hk => ?_⟩
  · have h1 : (lit "a" = lit "c") = False := by decide +kernel
    have h2 : (lit "b" = lit "a") = False := by decide +kernel
    simp [columnView, alignOf, exampleTable, exampleColumn, h1, h2]
  · show _ = if (k : Int) < 5 then _ else _
    rw [if_pos (by omega)]

end GoTable
