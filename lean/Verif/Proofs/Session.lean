import Verif.Spec.Session
import Verif.Props.MergeWidth
/-! Formatting, aligning and showing. -/

namespace GoTable
open Spec

variable {σ ι ν ε : Type}

theorem itemsOf_get (rows : List (List GoString)) (k : Nat) (h : k < rows.length) :
    rows[k]? = some ((itemsOf rows).get k) := by
  show _ = some (rows.getD (k : Int).toNat [])
  rw [Int.toNat_natCast, List.getD_eq_getElem?_getD, List.getElem?_eq_getElem h]
  rfl

theorem itemsOf_mem (rows : List (List GoString)) (k : Nat) (h : k < rows.length) :
    (itemsOf rows).get k ∈ rows := List.mem_of_getElem? (itemsOf_get rows k h)

/-! ## Aligned rows -/

theorem contents_get (m : Memory) (s : Slice) (i : Nat) :
    (contents m s)[i]? = if i < s.len then some (m s.array (s.first + i)) else none := by
  unfold contents
  rw [List.getElem?_map]
  split
  · rename_i h; rw [List.getElem?_range h]; rfl
  · rename_i h; rw [List.getElem?_eq_none (by simpa using h)]; rfl

/-- What `AlignFormattedItem` makes of the contents. -/
theorem contents_aligned {t : Table σ ι ν ε} {m m' : Memory} {s : Slice}
    (h : t.alignFormattedItem m s = some (.ok s, m')) :
    s.len = t.columns.length ∧ ∀ (c : Nat) (col : Column σ ι ν ε), t.columns[c]? = some col →
      ∃ x, (contents m s)[c]? = some x ∧ (contents m' s)[c]? = some (match col.alignment with
        | none => x
        | some al => al x (t.width col.name)) := by
  obtain ⟨h1, h2⟩ := C26_align_in_place t m s
  by_cases hl : s.len = t.columns.length
  · refine ⟨hl, fun c col hc => ?_⟩
    obtain ⟨m'', h3, h4, _⟩ := h2 hl
    rw [h3] at h
    cases h
    have hlt : c < s.len := by rw [hl]; exact (List.getElem?_eq_some_iff.mp hc).1
    exact ⟨_, by rw [contents_get, if_pos hlt], by
      rw [contents_get, if_pos hlt, h4 c col hc]; cases col.alignment <;> rfl⟩
  · rw [h1 hl] at h; simp at h

theorem renderCells_congr (f : Flags) (t : Table σ ι ν ε) (g : Nat) (item item' : List GoString)
    (cols : List (Column σ ι ν ε)) (i : Nat)
    (h : ∀ (j : Nat) (col : Column σ ι ν ε), cols[j]? = some col → t.columns[i + j]? = some col ∧
      ∃ x x', item[i + j]? = some x ∧ item'[i + j]? = some x' ∧
        alignOf f col x' (t.columnWidth col.name) = alignOf f col x (t.columnWidth col.name)) :
    renderCells f (getWidthTable t) g item' cols i = renderCells f (getWidthTable t) g item cols i := by
  induction cols generalizing i with
  | nil => rfl
  | cons c cs ih =>
    obtain ⟨h0, x, x', h1, h2, h3⟩ := h 0 c rfl
    have hrest := ih (i + 1) (fun j col hj => by
      have := h (j + 1) col hj
      rwa [show i + (j + 1) = i + 1 + j by omega] at this)
    rw [Nat.add_zero] at h0 h1 h2
    unfold alignOf at h3
    simp only [renderCells, cellAt, getWidthTable, h0, h1, h2, hrest]
    cases hc : c.alignment <;> simp only [hc, Option.getD_none, Option.getD_some] at h3 <;>
      simp only [bind, Except.bind, h3]

theorem lineGroups_congr (f : Flags) (t : Table σ ι ν ε) (items items' : Items) (gw : Nat → Nat → Except Panic UInt16)
    (hlen : items'.len = items.len)
    (h : ∀ (j k : Nat), k < items.len →
      renderCells f gw j (items'.get k) t.columns 0 = renderCells f gw j (items.get k) t.columns 0)
    (index : Nat → Nat) (g j : Nat) :
    lineGroups f t items' gw index g j = lineGroups f t items gw index g j := by
  generalize hd : g - j = d
  induction d generalizing j with
  | zero => rw [lineGroups.eq_1 f t items', lineGroups.eq_1 f t items, if_neg (by omega), if_neg (by omega)]
  | succ d ih =>
    rw [lineGroups.eq_1 f t items', lineGroups.eq_1 f t items, if_pos (show j < g by omega),
      if_pos (show j < g by omega)]
    simp only [hlen]
    split
    · rfl
    · rw [h j _ (by omega), ih (j + 1) (by omega)]

theorem alignOf_aligned {f : Flags} {t : Table σ ι ν ε} {col : Column σ ι ν ε} {x : GoString}
    (hb : BuiltIn f (alignOf f col)) (hs : ¬ StartsExtending x) (he : ¬ EndsInPrepend x) :
    alignOf f col (match col.alignment with | none => x | some al => al x (t.width col.name))
      (t.columnWidth col.name) = alignOf f col x (t.columnWidth col.name) := by
  obtain ⟨h1, h2, h3⟩ := C19_idempotent f x (t.columnWidth col.name)
  unfold alignOf at hb ⊢
  cases hc : col.alignment with
  | none => rfl
  | some al =>
    rw [hc] at hb
    simp only [Option.getD_some, Table.width] at hb ⊢
    rcases hb with rfl | rfl | rfl
    · exact h1 he
    · exact h2 hs
    · exact h3 he hs

theorem aligned_rows {f : Flags} {t : Table σ ι ν ε} {items items' : Items} (h : AlignedBy t items items')
    (hb : ∀ col ∈ t.columns, BuiltIn f (alignOf f col))
    (hx : ∀ k : Nat, k < items.len → ∀ x ∈ items.get k, ¬ StartsExtending x ∧ ¬ EndsInPrepend x)
    (j k : Nat) (hk : k < items.len) :
    renderCells f (getWidthTable t) j (items'.get k) t.columns 0 =
      renderCells f (getWidthTable t) j (items.get k) t.columns 0 := by
  obtain ⟨m, s, m', h1, h2, h3⟩ := h.2 k hk
  apply renderCells_congr
  intro c col hc
  rw [Nat.zero_add, h2, h3]
  obtain ⟨x, h4, h5⟩ := (contents_aligned h1).2 c col hc
  have := hx k hk x (by rw [h2]; exact List.mem_of_getElem? h4)
  exact ⟨hc, x, _, h4, h5, alignOf_aligned (hb col (List.mem_of_getElem? hc)) this.1 this.2⟩

/-! ## Headers -/

/-- The text shown in a header, within the width. -/
def shownTitle (t : Table σ ι ν ε) (col : Column σ ι ν ε) : GoString :=
  if (t.width col.name).toNat < col.title.length then
    if (t.width col.name).toNat < col.shortTitle.length then [] else col.shortTitle else col.title

theorem part_header {f : Flags} {nl : Prop} {t : Table σ ι ν ε} {col : Column σ ι ν ε}
    (hw : t.width col.name ≠ 0) (h1 : TitleOk f col.title) (h2 : TitleOk f col.shortTitle)
    (hnl : nl → NoIntroducer col.title ∧ NoIntroducer col.shortTitle) :
    Part f nl (t.padColumnHeader f col) ((t.columnWidth col.name).toNat : Int) := by
  have hpad : t.padColumnHeader f col = alignmentCenter f (shownTitle t col) (t.columnWidth col.name) := by
    simp only [Table.padColumnHeader, hw, if_false, shownTitle, gt_iff_lt]; rfl
  have hok : TitleOk f (shownTitle t col) ∧ (shownTitle t col).length ≤ (t.width col.name).toNat ∧
      (nl → NoIntroducer (shownTitle t col)) := by
    unfold shownTitle
    split
    · split
      · refine ⟨⟨by simp, ?_, by simp [EndsInPrepend], Or.inr ⟨[], by simp, rfl⟩⟩, by simp, ?_⟩
        · rintro ⟨r, hr, _⟩; simp at hr
        · intro _ r hr; simp at hr
      · exact ⟨h2, by omega, fun h => (hnl h).2⟩
    · exact ⟨h1, by omega, fun h => (hnl h).1⟩
  obtain ⟨hok, hlen, hno⟩ := hok
  rw [hpad]
  have hsw : stringWidth f (shownTitle t col) ≤ (shownTitle t col).length := by
    rcases hok.valid with hv | hv
    · exact (C09_stringWidth_bounds f _).2.1 hv
    · exact (C09_stringWidth_bounds f _).2.2 hv
  have hlt := (t.width col.name).toNat_lt
  refine part_align (Or.inr (Or.inr rfl)) ⟨hok.no9b, by omega, hok.start, hok.finish⟩ hno ?_
  have hv2 := (C15_no_underflow f (shownTitle t col) hok.no9b).2.2 (by omega)
  rw [countMatchesLength_eq] at hv2
  rw [UInt16.le_iff_toNat_le]
  show _ ≤ (t.width col.name).toNat
  omega

theorem forall₂_map {α β γ : Type} {R : β → γ → Prop} (F : α → β) (G : α → γ) (l : List α)
    (h : ∀ x ∈ l, R (F x) (G x)) : List.Forall₂ R (l.map F) (l.map G) := by
  induction l with
  | nil => exact .nil
  | cons a l ih => exact .cons (h a (by simp)) (ih fun x hx => h x (List.mem_cons_of_mem _ hx))

theorem formatHeader_eq (f : Flags) (t : Table σ ι ν ε) (sep : GoString) :
    t.formatHeader f sep = (t.columns.map (t.padColumnHeader f)).flatMap (fun x => x ++ sep) ++ [0x0A] := by
  unfold Table.formatHeader
  have : ∀ (cs : List (Column σ ι ν ε)) (acc : GoString),
      cs.foldl (fun str col => str ++ (t.padColumnHeader f col ++ sep)) acc =
        acc ++ (cs.map (t.padColumnHeader f)).flatMap (fun x => x ++ sep) := by
    intro cs
    induction cs with
    | nil => simp
    | cons c cs ih => intro acc; simp [ih, List.flatMap_cons]
  rw [this, lit_newline]; simp

theorem columnStart_eq (t : Table σ ι ν ε) (sepLen c : Nat) :
    (((t.columns.take c).map fun col => ((t.columnWidth col.name).toNat : Int)).map (· + (sepLen : Int))).sum + 0 =
      (columnStart t sepLen c : Int) := by
  unfold columnStart
  rw [Int.add_zero, List.map_map]
  generalize t.columns.take c = l
  induction l with
  | nil => rfl
  | cons a l ih => rw [List.map_cons, List.sum_cons, List.map_cons, List.sum_cons, ih]; simp

end GoTable
