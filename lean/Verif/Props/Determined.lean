import Verif.Props.Merge
import Verif.Proofs.MergeDetermined
/-!
# C72: merged output is completely determined

C30 and C31 say that some number of groups and some widths of the kind described give the listing. Here:
there is only one such number and, for what is printed, only one choice of widths, so that the listing
described is the only possible output; and a call that could print it does end.
-/

namespace GoTable
open Spec

variable {σ ι ν ε : Type}

/-- C72. At most one number of groups, and one width for each column of each group, meets the description. -/
theorem C72_unique (f : Flags) (t : Table σ ι ν ε) (items : Items) (arg : Int) (sepLen : Nat) (compact : Bool)
    (groupOf : Nat → Nat → Nat) (usable : Nat → Prop) (g g' : Nat) (w w' : Nat → Nat → UInt16)
    (h : Chosen f t items arg sepLen compact groupOf usable g w)
    (h' : Chosen f t items arg sepLen compact groupOf usable g' w') :
    g = g' ∧ ∀ j c, j < g → c < t.columns.length → w j c = w' j c := chosen_unique h h'

/-- C72. Row by row: a result is returned if and only if it is the listing described, written without a
panic. -/
theorem C72_horizontal (f : Flags) (t : Table σ ι ν ε) (items : Items) (arg : Int) (sep : GoString)
    (compact : Bool) (run : MergeRun) (hp : pitch t sep.length % 65536 ≠ 0) (hr : FullRows t items)
    (hn : 0 < items.len) :
    (∃ fuel, mergeRowsHorizontal f t items arg sep compact (fun _ => false) fuel = some run) ↔
      run.panic = none ∧
        ∃ g w, Chosen f t items arg sep.length compact groupH (fun _ => True) g w ∧
          run.written = listingH f t.columns w sep (fun k => items.get k) items.len g := by
  constructor
  · rintro ⟨fuel, h⟩
    have hrun := (C38_horizontal f t items arg sep compact fuel run h).2.2.1.mpr ⟨hp, hr⟩
    obtain ⟨g, w, _, h1, h2⟩ := C30_horizontal f t items arg sep compact fuel run h hrun hn
    exact ⟨hrun, g, w, h1, h2⟩
  · rintro ⟨hrun, g, w, h1, h2⟩
    have hend : ∃ fuel run', mergeRowsHorizontal f t items arg sep compact (fun _ => false) fuel = some run' := by
      rcases mergeH_run f t items arg sep compact (fun _ => false)
          (g + 1 - plainGroups (clamped arg) sep.length (pitch t sep.length)) hp hr with
        ⟨hc, h3, _⟩ | ⟨_, _, _, _, _, h3⟩
      · exfalso
        have hle := h1.atLeast
        have := h3 (g - plainGroups (clamped arg) sep.length (pitch t sep.length)) (by omega)
        rw [Nat.add_sub_cancel' hle, fitsH_iff f t items _ _ _ hr] at this
        exact h1.stop hc ⟨trivial, this⟩
      · exact ⟨_, _, h3⟩
    obtain ⟨fuel, run', h⟩ := hend
    refine ⟨fuel, ?_⟩
    rw [h]
    have hrun' := (C38_horizontal f t items arg sep compact fuel run' h).2.2.1.mpr ⟨hp, hr⟩
    obtain ⟨g', w', _, h1', h2'⟩ := C30_horizontal f t items arg sep compact fuel run' h hrun' hn
    obtain ⟨hg, hw⟩ := chosen_unique h1 h1'
    subst hg
    rw [← listingH_congr f t.columns w w' sep _ items.len g hw, ← h2] at h2'
    cases run; cases run'
    simp_all

/-- C72. Column by column: the result is the listing described, and any listing of that description is the
result. -/
theorem C72_vertical (f : Flags) (t : Table σ ι ν ε) (items : Items) (arg : Int) (sep : GoString)
    (compact : Bool) (run : MergeRun) (hp : pitch t sep.length % 65536 ≠ 0) (hr : FullRows t items)
    (hn : 0 < items.len) :
    mergeRowsVertical f t items arg sep compact (fun _ => false) = run ↔
      run.panic = none ∧
        ∃ g w, Chosen f t items arg sep.length compact (groupV items.len) (usableV items.len) g w ∧
          run.written = listingV f t.columns w sep (fun k => items.get k) items.len g := by
  have hrun := (C38_vertical f t items arg sep compact).2.2.1.mpr ⟨hp, hr⟩
  obtain ⟨g, w, _, h1, h2⟩ := C31_vertical f t items arg sep compact hrun hn
  constructor
  · intro h
    subst h
    exact ⟨hrun, g, w, h1, h2⟩
  · rintro ⟨hrun', g', w', h1', h2'⟩
    obtain ⟨hg, hw⟩ := chosen_unique h1 h1'
    subst hg
    rw [← listingV_congr f t.columns w w' sep _ items.len g hw, ← h2] at h2'
    generalize mergeRowsVertical f t items arg sep compact (fun _ => false) = run' at *
    cases run; cases run'
    simp_all

/-- The example listings: they are returned, so their descriptions are met, by these groups only. -/
example : ∃ g w, Chosen exampleFlags exampleTable exampleItems 20 (lit "|").length true groupH (fun _ => True) g w ∧
    [lit "x 1|中文 2|y 33|zz 4\n", lit "w 5|\n"] =
      listingH exampleFlags exampleTable.columns w (lit "|") (fun k => exampleItems.get k) exampleItems.len g :=
  ((C72_horizontal exampleFlags exampleTable exampleItems 20 (lit "|") true
    ⟨[lit "x 1|中文 2|y 33|zz 4\n", lit "w 5|\n"], none⟩ (by decide +kernel) exampleItems_full
    (by decide)).mp ⟨9, by decide +kernel⟩).2

example : ∃ g w, Chosen exampleFlags exampleTable exampleItems 21 (lit "|").length true (groupV exampleItems.len)
      (usableV exampleItems.len) g w ∧
    [lit "x    1|y  33|w 5\n", lit "中文 2|zz  4|\n"] =
      listingV exampleFlags exampleTable.columns w (lit "|") (fun k => exampleItems.get k) exampleItems.len g :=
  ((C72_vertical exampleFlags exampleTable exampleItems 21 (lit "|") true
    ⟨[lit "x    1|y  33|w 5\n", lit "中文 2|zz  4|\n"], none⟩ (by decide +kernel) exampleItems_full
    (by decide)).mp (by decide +kernel)).2

end GoTable
