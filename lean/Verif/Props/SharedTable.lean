import Verif.Proofs.SharedTable
import Verif.Props.Merge
/-!
# Properties: goroutines that use one table

C109: which calls may run at the same time on the same table.
-/

namespace GoTable
open Spec

variable {σ ι ν ε α : Type}

/-! ## What the programs do alone -/

/-- C109. Alone, the programs compute what the functions of the other model files compute, and leave the same widths. -/
theorem C109_alone (f : Flags) (t : Table σ ι ν ε) (item : ι) (st : σ) (entries : List (GoString × UInt16)) :
    (let r := (formatItemA f t.columns item st).run t.columnWidth;
      (r.1.1, { t with columnWidth := r.2 }, r.1.2) = t.formatItem f item st) ∧
    ((updateWidthA entries).run t.columnWidth).2 = updateWidth t.columnWidth entries := by
  refine ⟨?_, run_updateWidth entries _⟩
  have h := run_formatItemLoop f item t.columns [] st t.columnWidth
  dsimp only at h ⊢
  unfold Table.formatItem
  rw [← h]
  rfl

/-- C109. Width, TableWidth, FormatHeader, AlignFormattedItem and both merges write nothing, whatever the widths are. -/
theorem C109_readers (f : Flags) (t : Table σ ι ν ε) (name sep : GoString) (margin : UInt16) (m : Memory) (s : Slice)
    (items : Items) (maxWidth : Int) (compact : Bool) (fails : Nat → Bool) (fuel : Nat) :
    Answers (widthA name) t.columnWidth (t.width name) ∧
    Answers (tableWidthA t.columns margin) t.columnWidth (t.tableWidth margin) ∧
    Answers (formatHeaderA f t.columns sep) t.columnWidth (t.formatHeader f sep) ∧
    Answers (alignFormattedItemA t.columns m s) t.columnWidth (t.alignFormattedItem m s) ∧
    Answers (mergeRowsHorizontalA f t.columns items maxWidth sep compact fails fuel) t.columnWidth
      (mergeRowsHorizontal f t items maxWidth sep compact fails fuel) ∧
    Answers (mergeRowsVerticalA f t.columns items maxWidth sep compact fails) t.columnWidth
      (mergeRowsVertical f t items maxWidth sep compact fails) :=
  ⟨answers_width _ _, answers_tableWidth t margin, answers_header f t sep, answers_align t m s,
    answers_horizontal f t items maxWidth sep compact fails fuel, answers_vertical f t items maxWidth sep compact fails⟩

/-- C109. FormatItem writes nothing exactly if alone it would leave the widths as they are. -/
theorem C109_format_item (f : Flags) (t : Table σ ι ν ε) (item : ι) (st : σ) :
    WritesNothing (formatItemA f t.columns item st) t.columnWidth ↔ (t.formatItem f item st).2.1 = t := by
  unfold formatItemA Table.formatItem
  rw [quiet_formatItemLoop]
  dsimp only
  constructor
  · intro h; rw [h]
  · intro h; exact congrArg Table.columnWidth h

/-- C109. UpdateWidth writes nothing exactly if no entry is larger than the recorded width. -/
theorem C109_update_width (cw : WidthMap) (entries : List (GoString × UInt16)) :
    WritesNothing (updateWidthA entries) cw ↔ ∀ e ∈ entries, e.2 ≤ cw e.1 := quiet_updateWidth entries cw

/-- C109. Calls one after the other write nothing exactly if none of them does. -/
theorem C109_sequence {β : Type} (p : Acts α) (g : α → Acts β) (cw : WidthMap) :
    WritesNothing (p >>= g) cw ↔ WritesNothing p cw ∧ WritesNothing (g (p.run cw).1) cw := quiet_bind p g cw

/-! ## Goroutines -/

/-- C109. Any number of goroutines on one table, each making calls that alone would leave its widths as they are, in any
interleaving: there is never a race, the widths stay, a goroutine that has finished has computed what it would have computed
alone, and one that has not finished can go on. -/
theorem C109_goroutines (cw : WidthMap) (work : Nat → Acts α) (h : ∀ i, WritesNothing (work i) cw) (st : SharedT α)
    (hr : SharedT.Reaches ⟨cw, work⟩ st) :
    ¬ st.Race ∧ st.widths = cw ∧ ∀ i, (∀ a, st.threads i = .ret a → Answers (work i) cw a) ∧
      (¬ Idle (st.threads i) → ∃ st', SharedT.Step st st' ∧ ∀ j, j ≠ i → st'.threads j = st.threads j) := by
  obtain ⟨h1, h2⟩ := quiet_reaches h hr
  refine ⟨?_, h1, fun i => ⟨fun a ha => ⟨h i, ?_⟩, fun hi => ?_⟩⟩
  · rintro ⟨i, j, _, ⟨n, w, k, e⟩, _⟩
    have := (h2 i).1
    rw [e] at this
    exact this
  · have := (h2 i).2
    rw [ha] at this
    rw [← this]
    rfl
  · cases e : st.threads i with
    | ret a => exact absurd ⟨a, e⟩ hi
    | read n k => exact ⟨_, .read st i n k e, fun j hj => setThread_other _ _ _ _ hj⟩
    | write n w k => exact ⟨_, .write st i n w k e, fun j hj => setThread_other _ _ _ _ hj⟩

/-- C109. There can be a race exactly if one goroutine would write, alone, and another one uses the widths at all. -/
theorem C109_race_iff (cw : WidthMap) (work : Nat → Acts α) :
    (∃ st, SharedT.Reaches ⟨cw, work⟩ st ∧ st.Race) ↔ ∃ i j, i ≠ j ∧ ¬ WritesNothing (work i) cw ∧ ¬ Idle (work j) := by
  constructor
  · rintro ⟨st, hr, hrace⟩
    by_cases hq : ∀ i, WritesNothing (work i) cw
    · exact absurd hrace (C109_goroutines cw work hq st hr).1
    · obtain ⟨i, hi⟩ := Classical.not_forall.mp hq
      refine Classical.byContradiction fun hn => ?_
      have hidle : ∀ j, j ≠ i → ∃ a, work j = .ret a := fun j hj =>
        Classical.byContradiction fun hx => hn ⟨i, j, fun e => hj e.symm, hi, hx⟩
      have hkeep : ∀ j, j ≠ i → st.threads j = work j := by
        clear hrace
        generalize hs : (⟨cw, work⟩ : SharedT α) = s0 at hr
        induction hr with
        | refl => subst hs; exact fun _ _ => rfl
        | step _ hst ih =>
          have IH := ih
          intro j hj
          cases hst with
          | read i' n k ht =>
            by_cases e : j = i'
            · subst e
              obtain ⟨a, ha⟩ := hidle j hj
              rw [IH j hj, ha] at ht
              cases ht
            · rw [setThread_other _ _ _ _ e]; exact IH j hj
          | write i' n w k ht =>
            by_cases e : j = i'
            · subst e
              obtain ⟨a, ha⟩ := hidle j hj
              rw [IH j hj, ha] at ht
              cases ht
            · rw [setThread_other _ _ _ _ e]; exact IH j hj
      have none_else : ∀ j, j ≠ i → (¬ ∃ n k, st.threads j = .read n k) ∧ ¬ ∃ n w k, st.threads j = .write n w k := by
        intro j hj
        obtain ⟨a, ha⟩ := hidle j hj
        rw [hkeep j hj, ha]
        exact ⟨fun ⟨_, _, e⟩ => (by cases e), fun ⟨_, _, _, e⟩ => (by cases e)⟩
      obtain ⟨x, y, hxy, hx, hy⟩ := hrace
      by_cases e : x = i
      · subst e
        exact hy.elim (none_else y fun e => hxy e.symm).1 (none_else y fun e => hxy e.symm).2
      · exact (none_else x e).2 hx
  · rintro ⟨i, j, hij, hi, hj⟩
    obtain ⟨n, w, k, hr⟩ := loud_reaches (work i) cw hi i ⟨cw, work⟩ rfl rfl
    refine ⟨_, hr, i, j, hij, ⟨n, w, k, setThread_self _ _ _⟩, ?_⟩
    rw [setThread_other _ _ _ _ (fun e => hij e.symm)]
    show (∃ n k, work j = .read n k) ∨ ∃ n w k, work j = .write n w k
    cases e : work j with
    | ret a => exact absurd ⟨a, e⟩ hj
    | read n k => exact .inl ⟨n, k, rfl⟩
    | write n w k => exact .inr ⟨n, w, k, rfl⟩

/-- Two goroutines that read an entry and then write it: the one with `a` can be the last. -/
theorem lost_write (cw : WidthMap) (n : GoString) (a b : UInt16) (x y : α) (p q : Acts α) (z : Nat → α)
    (k l : UInt16 → Acts α) (hp : p = .read n k) (hq : q = .read n l) (hk : k (cw n) = .write n a (.ret x))
    (hl : l (cw n) = .write n b (.ret y)) :
    ∃ st, SharedT.Reaches ⟨cw, fun i => if i = 0 then p else if i = 1 then q else .ret (z i)⟩ st ∧
      st.threads 0 = .ret x ∧ st.threads 1 = .ret y ∧ (∀ i, Idle (st.threads i)) ∧ st.widths n = a := by
  have h1 := SharedT.Reaches.step (.refl ⟨cw, fun i => if i = 0 then p else if i = 1 then q else .ret (z i)⟩)
    (SharedT.Step.read _ 0 n k hp)
  have h2 := h1.step (SharedT.Step.read _ 1 n l hq)
  have h3 := h2.step (SharedT.Step.write _ 1 n b (.ret y) ((setThread_self _ _ _).trans hl))
  have h4 := h3.step (SharedT.Step.write _ 0 n a (.ret x) hk)
  refine ⟨_, h4, rfl, rfl, fun i => ?_, ?_⟩
  · match i with
    | 0 => exact ⟨x, rfl⟩
    | 1 => exact ⟨y, rfl⟩
    | i + 2 => exact ⟨z (i + 2), rfl⟩
  · show WidthMap.set _ n a n = a
    simp [WidthMap.set]

/-- C109. A width can get lost even if single accesses to the map are atomic: of two goroutines that call UpdateWidth with
larger widths for a column than the one recorded, the one with the smaller width can be the last to write. -/
theorem C109_lost_update (cw : WidthMap) (n : GoString) (a b : UInt16) (ha : cw n < a) (hb : cw n < b) :
    ∃ st, SharedT.Reaches
        ⟨cw, fun i => if i = 0 then updateWidthA [(n, a)] else if i = 1 then updateWidthA [(n, b)] else .ret ()⟩ st ∧
      (∀ i, Idle (st.threads i)) ∧ st.widths n = a := by
  obtain ⟨st, h1, _, _, h2, h3⟩ := lost_write cw n a b () () (updateWidthA [(n, a)]) (updateWidthA [(n, b)]) (fun _ => ())
    (fun old => (if a > old then .write n a (.ret ()) else .ret () : Acts Unit).bind .ret)
    (fun old => (if b > old then .write n b (.ret ()) else .ret () : Acts Unit).bind .ret)
    rfl rfl (by rw [if_pos ha]; rfl) (by rw [if_pos hb]; rfl)
  exact ⟨st, h1, h2, h3⟩

/-- C109. The same for FormatItem, on a table with one column: both rows are returned, and the column can end up narrower
than the wider one of them. -/
theorem C109_lost_row (f : Flags) (t : Table σ ι ν ε) (c : Column σ ι ν ε) (hc : t.columns = [c]) (x y : ι)
    (st₁ st₂ st₁' st₂' : σ) (s u : GoString) (hx : t.formatItem f x st₁ = (.ok [s], (t.formatItem f x st₁).2.1, st₁'))
    (hy : t.formatItem f y st₂ = (.ok [u], (t.formatItem f y st₂).2.1, st₂'))
    (hs : t.width c.name < visualWidth f s) (hu : t.width c.name < visualWidth f u) (z : Nat → Except ε (List GoString) × σ) :
    ∃ st, SharedT.Reaches ⟨t.columnWidth, fun i => if i = 0 then formatItemA f t.columns x st₁ else
        if i = 1 then formatItemA f t.columns y st₂ else .ret (z i)⟩ st ∧
      st.threads 0 = .ret (.ok [s], st₁') ∧ st.threads 1 = .ret (.ok [u], st₂') ∧ (∀ i, Idle (st.threads i)) ∧
      st.widths c.name = visualWidth f s := by
  have key : ∀ (x : ι) (st₁ st₁' : σ) (s : GoString),
      t.formatItem f x st₁ = (.ok [s], (t.formatItem f x st₁).2.1, st₁') → formatItemA f t.columns x st₁ = .read c.name
        fun old => (if visualWidth f s > old then .write c.name (visualWidth f s) (.ret ()) else .ret () : Acts Unit).bind
          fun _ => .ret (.ok [s], st₁') := by
    intro x st st' s h
    unfold Table.formatItem at h
    unfold formatItemA
    rw [hc] at h ⊢
    rw [formatItemLoop] at h
    rw [formatItemLoopA]
    rcases hv : c.getter.value x st with ⟨_ | v, sv⟩
    · rw [hv] at h; simp at h
    · rw [hv] at h
      dsimp only at h ⊢
      rcases hf : c.getter.format x v sv with ⟨_ | w, sw⟩
      · rw [hf] at h; simp at h
      · rw [hf] at h
        simp only [formatItemLoop, List.nil_append, Prod.mk.injEq, Except.ok.injEq, List.cons.injEq, and_true, true_and] at h
        obtain ⟨rfl, rfl⟩ := h
        rfl
  exact lost_write t.columnWidth c.name _ _ _ _ _ _ z _ _ (key x st₁ st₁' s hx) (key y st₂ st₂' u hy)
    (by rw [if_pos (show visualWidth f s > t.columnWidth c.name from hs)]; rfl)
    (by rw [if_pos (show visualWidth f u > t.columnWidth c.name from hu)]; rfl)

/-! ## Examples -/

instance quietDecidable : (p : Acts α) → (cw : WidthMap) → Decidable (WritesNothing p cw)
  | .ret _, _ => isTrue trivial
  | .read n k, cw => quietDecidable (k (cw n)) cw
  | .write _ _ _, _ => isFalse id

/-- Formatting an item that fits and printing the header are quiet; formatting one that is too wide is not. So by
`C109_goroutines` the first two can run at the same time, and by `C109_race_iff` neither can with the third. -/
example :
    WritesNothing (formatItemA exampleFlags exampleTable.columns [some (lit "中"), some (lit "7")] 0) exampleTable.columnWidth ∧
    ¬ Idle (formatItemA exampleFlags exampleTable.columns [some (lit "中"), some (lit "7")] 0) ∧
    exampleTable.formatHeader exampleFlags (lit "|") = ((formatHeaderA exampleFlags exampleTable.columns (lit "|")).run
      exampleTable.columnWidth).1 ∧
    ¬ WritesNothing (formatItemA exampleFlags exampleTable.columns [some (lit "中文"), some (lit "7")] 0)
      exampleTable.columnWidth := by
  refine ⟨by decide +kernel, fun ⟨_, h⟩ => (by cases h), by decide +kernel, by decide +kernel⟩

/-- A column of width 1, two goroutines that record widths 3 and 5: the recorded width can end up as 3. -/
example : ∃ st, SharedT.Reaches ⟨fun _ => 1, fun i => if i = 0 then updateWidthA [(lit "a", 3)] else
      if i = 1 then updateWidthA [(lit "a", 5)] else .ret ()⟩ st ∧ (∀ i, Idle (st.threads i)) ∧ st.widths (lit "a") = 3 :=
  C109_lost_update (fun _ => 1) (lit "a") 3 5 (by decide) (by decide)

/-- A table with one column and two items as in `C109_lost_row`. -/
example :
    let t : Table Nat (List (Option GoString)) GoString Nat := { columns := [exampleColumn 0 "a" none], columnWidth := fun _ => 2 }
    (t.formatItem exampleFlags [some (lit "xy")] 0).1 = .ok [lit "xy!"] ∧
    (t.formatItem exampleFlags [some (lit "中文")] 0).1 = .ok [lit "中文!"] ∧
    t.width (lit "a") < visualWidth exampleFlags (lit "xy!") ∧
    visualWidth exampleFlags (lit "xy!") < visualWidth exampleFlags (lit "中文!") := by
  decide +kernel

end GoTable
