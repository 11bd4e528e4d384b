import Verif.Proofs.Table
/-! The heap of specs and tables agrees with the log of calls. -/

namespace GoTable
open Spec

variable {σ ι ν ε : Type}

/-- Latest column of a name. -/
def latest (n : GoString) (cols : List (Column σ ι ν ε)) : Option (Column σ ι ν ε) :=
  cols.reverse.find? (fun c => c.name = n)

theorem latest_snoc (n : GoString) (cols : List (Column σ ι ν ε)) (c : Column σ ι ν ε) :
    latest n (cols ++ [c]) = if n = c.name then some c else latest n cols := by
  unfold latest
  rw [List.reverse_append]
  simp only [List.reverse_cons, List.reverse_nil, List.nil_append, List.cons_append, List.find?_cons]
  by_cases h : c.name = n
  · simp [h]
  · have h' : ¬ n = c.name := fun x => h x.symm
    simp [h, h']

/-- A spec holds exactly these columns. -/
def SpecHolds (s : TableSpec σ ι ν ε) (cols : List (Column σ ι ν ε)) : Prop :=
  s.columns = cols ∧ ∀ n, s.columnByName n = latest n cols

theorem SpecHolds.add {s : TableSpec σ ι ν ε} {cols : List (Column σ ι ν ε)} (h : SpecHolds s cols)
    (c : Column σ ι ν ε) : SpecHolds (s.addColumn c) (cols ++ [c]) := by
  refine ⟨by simp [TableSpec.addColumn, h.1], fun n => ?_⟩
  simp only [TableSpec.addColumn, latest_snoc, h.2]

theorem SpecHolds.new : SpecHolds (newTableSpec : TableSpec σ ι ν ε) [] :=
  ⟨rfl, fun _ => rfl⟩

/-- The heap agrees with the log. -/
structure Agrees (f : Flags) (past : List (WorldOp σ ι ν ε)) (w : World σ ι ν ε) : Prop where
  count : w.specs.length = specCount past
  specs : ∀ sp s, w.specs[sp]? = some s → SpecHolds s (addedTo sp past)
  fresh : ∀ sp, specCount past ≤ sp → addedTo sp past = []
  tables : w.tables.map Prod.fst = specOfTable past
  bound : ∀ sp ∈ specOfTable past, sp < specCount past
  widths : ∀ t sp cw, w.tables[t]? = some (sp, cw) →
    ∀ n, IsMax (reported n (toldTo (visualWidth f) t past)) (cw n)
  untold : ∀ t, (specOfTable past).length ≤ t → toldTo (visualWidth f) t past = []

theorem columnsOf_beyond {past : List (WorldOp σ ι ν ε)} {t : Nat}
    (h : (specOfTable past).length ≤ t) : columnsOf t past = [] := by
  unfold columnsOf; rw [List.getElem?_eq_none h]

theorem Agrees.tableSpec {f : Flags} {past : List (WorldOp σ ι ν ε)} {w : World σ ι ν ε}
    (h : Agrees f past w) (t : Nat) : (specOfTable past)[t]? = (w.tables[t]?).map Prod.fst := by
  rw [← h.tables, List.getElem?_map]

theorem Agrees.table? {f : Flags} {past : List (WorldOp σ ι ν ε)} {w : World σ ι ν ε}
    (h : Agrees f past w) {t sp : Nat} {cw : WidthMap} (ht : w.tables[t]? = some (sp, cw)) :
    w.table? t = some { columns := columnsOf t past, columnWidth := cw } ∧
      (specOfTable past)[t]? = some sp := by
  have hs : (specOfTable past)[t]? = some sp := by rw [h.tableSpec, ht]; rfl
  have hb : sp < w.specs.length := by
    rw [h.count]; exact h.bound sp (List.mem_of_getElem? hs)
  have hsp : w.specs[sp]? = some w.specs[sp] := List.getElem?_eq_getElem hb
  have := (h.specs sp _ hsp).1
  refine ⟨?_, hs⟩
  unfold World.table?
  rw [ht]; dsimp only
  rw [hsp]; dsimp only
  rw [this]
  simp [columnsOf, hs]

theorem isMax_nil : IsMax [] (0 : UInt16) := ⟨by simp, Or.inl rfl⟩

theorem agrees_addTo {f : Flags} {past : List (WorldOp σ ι ν ε)} {w : World σ ι ν ε}
    (h : Agrees f past w) (op : WorldOp σ ι ν ε) (sp : Nat) (col : Column σ ι ν ε)
    (hsp : sp < specCount past)
    (h1 : specCount (op :: past) = specCount past) (h2 : specOfTable (op :: past) = specOfTable past)
    (h3 : ∀ sp', addedTo sp' (op :: past) = if sp' = sp then addedTo sp' past ++ [col] else addedTo sp' past)
    (h4 : ∀ t, toldTo (visualWidth f) t (op :: past) = toldTo (visualWidth f) t past) :
    Agrees f (op :: past) { w with specs := w.specs.modify sp (·.addColumn col) } where
  count := by simp [h.count, h1]
  specs := by
    intro sp' s hs
    rw [h3]
    rw [List.getElem?_modify] at hs
    by_cases he : sp = sp'
    · subst he
      simp only [if_true, Option.map_eq_map, Option.map_eq_some_iff] at hs ⊢
      obtain ⟨s0, hs0, rfl⟩ := hs
      exact (h.specs _ _ hs0).add col
    · have he' : ¬ sp' = sp := fun x => he x.symm
      rw [if_neg he']
      simp only [he, if_false, Option.map_eq_map] at hs
      apply h.specs
      simpa using hs
  fresh := by
    intro sp' hle
    rw [h1] at hle
    rw [h3, if_neg (by omega)]
    exact h.fresh sp' hle
  tables := by rw [h2]; exact h.tables
  bound := by rw [h2, h1]; exact h.bound
  widths := by intro t sp' cw ht; rw [h4]; exact h.widths t sp' cw ht
  untold := by intro t ht; rw [h2] at ht; rw [h4]; exact h.untold t ht

theorem agrees_told {f : Flags} {past : List (WorldOp σ ι ν ε)} {w : World σ ι ν ε}
    (h : Agrees f past w) (op : WorldOp σ ι ν ε) (t : Nat) (es : List (GoString × UInt16))
    (g : Nat × WidthMap → Nat × WidthMap)
    (hg : ∀ sp cw, w.tables[t]? = some (sp, cw) → g (sp, cw) = (sp, updateWidth cw es))
    (h1 : specCount (op :: past) = specCount past) (h2 : specOfTable (op :: past) = specOfTable past)
    (h3 : ∀ sp', addedTo sp' (op :: past) = addedTo sp' past)
    (h4 : ∀ t', t' < (specOfTable past).length → toldTo (visualWidth f) t' (op :: past) =
      if t' = t then es ++ toldTo (visualWidth f) t' past else toldTo (visualWidth f) t' past)
    (h5 : ∀ t', (specOfTable past).length ≤ t' → toldTo (visualWidth f) t' (op :: past) =
      toldTo (visualWidth f) t' past) :
    Agrees f (op :: past) { w with tables := w.tables.modify t g } where
  count := by simp [h.count, h1]
  specs := by intro sp s hs; rw [h3]; exact h.specs sp s hs
  fresh := by intro sp hle; rw [h1] at hle; rw [h3]; exact h.fresh sp hle
  tables := by
    rw [h2, ← h.tables]
    apply List.ext_getElem?
    intro i
    rw [List.getElem?_map, List.getElem?_map, List.getElem?_modify]
    by_cases he : t = i
    · subst he
      rcases hx : w.tables[t]? with _ | ⟨sp, cw⟩
      · simp
      · simp [hg sp cw hx]
    · simp [he]
  bound := by rw [h2, h1]; exact h.bound
  widths := by
    intro t' sp cw ht n
    have hlen : t' < (specOfTable past).length := by
      have : t' < (w.tables.modify t g).length := (List.getElem?_eq_some_iff.mp ht).1
      rw [List.length_modify] at this
      rw [← h.tables, List.length_map]; exact this
    rw [h4 t' hlen]
    rw [List.getElem?_modify] at ht
    by_cases he : t = t'
    · subst he
      simp only [if_true, Option.map_eq_map, Option.map_eq_some_iff] at ht ⊢
      obtain ⟨⟨sp0, cw0⟩, hx, hgx⟩ := ht
      rw [hg sp0 cw0 hx] at hgx
      simp only [Prod.mk.injEq] at hgx
      obtain ⟨rfl, rfl⟩ := hgx
      rw [reported_append]
      have := updateWidth_isMax cw0 es n
      exact isMax_step (h.widths t sp0 cw0 hx n) _ _ this.1 this.2
    · have he' : ¬ t' = t := fun x => he x.symm
      rw [if_neg he']
      have : w.tables[t']? = some (sp, cw) := by simpa [he] using ht
      exact h.widths t' sp cw this n
  untold := by intro t' ht'; rw [h2] at ht'; rw [h5 t' ht']; exact h.untold t' ht'

theorem agrees (f : Flags) (past : List (WorldOp σ ι ν ε)) : Agrees f past (worldAfter f past) := by
  induction past with
  | nil =>
    refine ⟨rfl, ?_, fun _ _ => rfl, rfl, ?_, ?_, fun _ _ => rfl⟩
    · intro sp s hs; simp [worldAfter, World.empty] at hs
    · simp [specOfTable]
    · intro t sp cw ht; simp [worldAfter, World.empty] at ht
  | cons op past ih =>
    rw [worldAfter]
    generalize worldAfter f past = w at ih
    have newSpecs : ∀ sp s, (w.specs ++ [newTableSpec])[sp]? = some s → SpecHolds s (addedTo sp past) := by
      intro sp s hs
      rcases Nat.lt_trichotomy sp w.specs.length with hl | hl | hl
      · rw [List.getElem?_append_left hl] at hs; exact ih.specs sp s hs
      · rw [hl, List.getElem?_append_right (Nat.le_refl _)] at hs
        simp only [Nat.sub_self, List.getElem?_cons_zero, Option.some.injEq] at hs
        rw [ih.fresh sp (by rw [← ih.count]; omega), ← hs]
        exact SpecHolds.new
      · rw [List.getElem?_eq_none (by simp; omega)] at hs; simp at hs
    have newTables : ∀ sp0 t sp cw, (w.tables ++ [(sp0, fun _ => 0)])[t]? = some (sp, cw) →
        ∀ n, IsMax (reported n (toldTo (visualWidth f) t past)) (cw n) := by
      intro sp0 t sp cw ht n
      rcases Nat.lt_trichotomy t w.tables.length with hl | hl | hl
      · rw [List.getElem?_append_left hl] at ht; exact ih.widths t sp cw ht n
      · rw [hl, List.getElem?_append_right (Nat.le_refl _)] at ht
        simp only [Nat.sub_self, List.getElem?_cons_zero, Option.some.injEq, Prod.mk.injEq] at ht
        rw [ih.untold t (by rw [← ih.tables, List.length_map]; omega), ← ht.2]
        exact isMax_nil
      · rw [List.getElem?_eq_none (by simp; omega)] at ht; simp at ht
    cases op with
    | newSpec =>
      refine ⟨?_, ?_, ?_, ?_, ?_, ?_, ?_⟩
      · simp [World.step, specCount, ih.count]
      · exact newSpecs
      · intro sp hle; simp only [specCount] at hle; exact ih.fresh sp (by omega)
      · exact ih.tables
      · intro sp hsp; have := ih.bound sp hsp; simp only [specCount]; omega
      · exact ih.widths
      · exact ih.untold
    | newTable sp0 =>
      by_cases hsp : sp0 < specCount past
      · simp only [World.step, ih.count, hsp, if_true]
        refine ⟨ih.count, ih.specs, ih.fresh, ?_, ?_, newTables sp0, ?_⟩
        · simp [specOfTable, hsp, ih.tables]
        · intro sp h
          simp only [specOfTable, hsp, if_true, List.mem_append, List.mem_singleton] at h
          rcases h with h | h
          · exact ih.bound sp h
          · rw [h]; exact hsp
        · intro t ht
          simp only [specOfTable, hsp, if_true, List.length_append, List.length_singleton] at ht
          exact ih.untold t (by omega)
      · simp only [World.step, ih.count, hsp, if_false]
        refine ⟨ih.count, ih.specs, ih.fresh, ?_, ?_, ih.widths, ?_⟩
        · simp [specOfTable, hsp, ih.tables]
        · simp only [specOfTable, hsp, if_false]; exact ih.bound
        · simp only [specOfTable, hsp, if_false]; exact ih.untold
    | newTableNil =>
      refine ⟨?_, newSpecs, ?_, ?_, ?_, newTables _, ?_⟩
      · simp [World.step, specCount, ih.count]
      · intro sp hle; simp only [specCount] at hle; exact ih.fresh sp (by omega)
      · simp [World.step, specOfTable, ih.tables, ih.count]
      · intro sp h
        simp only [specOfTable, List.mem_append, List.mem_singleton, specCount] at h ⊢
        rcases h with h | h
        · have := ih.bound sp h; omega
        · omega
      · intro t ht
        simp only [specOfTable, List.length_append, List.length_singleton] at ht
        exact ih.untold t (by omega)
    | addColumn sp col =>
      by_cases hsp : sp < specCount past
      · refine agrees_addTo ih _ sp col hsp rfl rfl (fun sp' => ?_) (fun _ => rfl)
        by_cases he : sp' = sp
        · subst he; simp [addedTo, hsp]
        · have he' : ¬ sp = sp' := fun x => he x.symm
          simp [addedTo, he, he']
      · have hm : w.specs.modify sp (·.addColumn col) = w.specs := by
          apply List.ext_getElem?
          intro i
          rw [List.getElem?_modify]
          by_cases he : sp = i
          · rw [← he, List.getElem?_eq_none (by rw [ih.count]; omega)]; simp
          · simp [he]
        simp only [World.step, hm]
        refine ⟨ih.count, fun sp' s hs => ?_, fun sp' hle => ?_, ih.tables, ih.bound, ih.widths, ih.untold⟩
        · have hlt : sp' < w.specs.length := (List.getElem?_eq_some_iff.mp hs).1
          rw [addedTo, if_neg (by rw [ih.count] at hlt; omega)]
          exact ih.specs sp' s hs
        · simp only [specCount] at hle
          rw [addedTo, if_neg (by omega)]
          exact ih.fresh sp' hle
    | tableAddColumn t col =>
      rcases ht : w.tables[t]? with _ | ⟨sp, cw⟩
      · have hs : (specOfTable past)[t]? = none := by rw [ih.tableSpec, ht]; rfl
        have ha : ∀ sp', addedTo sp' (.tableAddColumn t col :: past) = addedTo sp' past := by
          intro sp'; simp [addedTo, hs]
        simp only [World.step, ht]
        refine ⟨ih.count, fun sp' s hs => ?_, fun sp' hle => ?_, ih.tables, ih.bound, ih.widths, ih.untold⟩
        · rw [ha]; exact ih.specs sp' s hs
        · rw [ha]; exact ih.fresh sp' hle
      · have hs : (specOfTable past)[t]? = some sp := by rw [ih.tableSpec, ht]; rfl
        simp only [World.step, ht]
        refine agrees_addTo ih _ sp col (ih.bound sp (List.mem_of_getElem? hs)) rfl rfl
          (fun sp' => ?_) (fun _ => rfl)
        rw [addedTo, hs]
        by_cases he : sp' = sp
        · simp [he]
        · have he' : ¬ sp = sp' := fun x => he x.symm
          simp [he, he']
    | updateWidth t es =>
      refine agrees_told ih _ t es _ (fun sp cw _ => rfl) rfl rfl (fun _ => rfl) (fun t' ht' => ?_)
        (fun t' ht' => ?_)
      · by_cases he : t' = t
        · subst he; simp [toldTo, ht']
        · have he' : ¬ t = t' := fun x => he x.symm
          simp [toldTo, he, he']
      · rw [toldTo, if_neg (by omega)]
    | formatItem t item st =>
      have hbeyond : ∀ t', (specOfTable past).length ≤ t' →
          toldTo (visualWidth f) t' (.formatItem t item st :: past) = toldTo (visualWidth f) t' past := by
        intro t' ht'
        rw [toldTo]
        split
        · simp [columnsOf_beyond ht']
        · rfl
      rcases ht : w.tables[t]? with _ | ⟨sp, cw⟩
      · have htn : w.table? t = none := by unfold World.table?; rw [ht]
        have hlen : (specOfTable past).length ≤ t := by
          rw [← ih.tables, List.length_map]; exact List.getElem?_eq_none_iff.mp ht
        simp only [World.step, htn]
        have ha : ∀ t', toldTo (visualWidth f) t' (.formatItem t item st :: past) =
            toldTo (visualWidth f) t' past := by
          intro t'
          by_cases he : t = t'
          · subst he; exact hbeyond t hlen
          · simp [toldTo, he]
        refine ⟨ih.count, ih.specs, ih.fresh, ih.tables, ih.bound, fun t' sp' cw' hx => ?_, fun t' hx => ?_⟩
        · rw [ha]; exact ih.widths t' sp' cw' hx
        · rw [ha]; exact ih.untold t' hx
      · obtain ⟨htb, hs⟩ := ih.table? ht
        simp only [World.step, htb, formatItem_eq]
        refine agrees_told ih _ t (((columnsOf t past).map Column.name).zip
          ((upToError (fun c st => cell c item st) (columnsOf t past) st).1.map (visualWidth f))) _
          (fun sp' cw' hx => ?_) rfl rfl (fun _ => rfl) (fun t' ht' => ?_) hbeyond
        · rw [ht] at hx
          simp only [Option.some.injEq, Prod.mk.injEq] at hx
          obtain ⟨rfl, rfl⟩ := hx
          rfl
        · by_cases he : t' = t
          · subst he; simp [toldTo]
          · have he' : ¬ t = t' := fun x => he x.symm
            simp [toldTo, he, he']

end GoTable
