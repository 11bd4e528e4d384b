import Verif.Proofs.Layout
import Verif.Props.Merge
import Verif.Props.Reorder
/-!
# Properties: the layout of merged output

C108: what is printed around the cells depends on how wide they are, not on their texts.
-/

namespace GoTable
open Spec

variable {σ ι ν ε : Type}

theorem same_refl (f : Flags) (a : Items) : SameWidths f a a := ⟨rfl, fun _ _ => rfl⟩

theorem placesH (f : Flags) (t : Table σ ι ν ε) (a : Items) (maxWidth : Int) (sep : GoString) (compact : Bool)
    (fails : Nat → Bool) (fuel : Nat) :
    ∃ l : Option (List (List Place) × Option Panic), (∀ y ∈ l, ∀ x ∈ y.1, ∀ p ∈ x, p.InRange a.len) ∧ ∀ b, SameWidths f a b →
      mergeRowsHorizontal f t b maxWidth sep compact fails fuel =
        l.map fun x => ⟨x.1.map (fill (alignmentOf f t) b), x.2⟩ := by
  unfold mergeRowsHorizontal
  dsimp only
  cases initialGroupCount t (maxWidthOf maxWidth) (u16 sep.length) with
  | error p => exact ⟨some ([], some p), by simp, fun b _ => rfl⟩
  | ok g =>
    obtain ⟨l, hgl, hl⟩ := printH_places f t a sep fails g (getWidthTable t)
    cases compact with
    | false => exact ⟨some l, by simpa using hgl, fun b hb => by simp only [hl b hb]; rfl⟩
    | true =>
      have hc : ∀ b, SameWidths f a b → compactCalcH f t b (maxWidthOf maxWidth) (u16 sep.length) g fuel =
          compactCalcH f t a (maxWidthOf maxWidth) (u16 sep.length) g fuel := fun b hb => compactLoopH_same hb t _ _ _ _ _ _
      cases hr : compactCalcH f t a (maxWidthOf maxWidth) (u16 sep.length) g fuel with
      | none => exact ⟨none, by simp, fun b hb => by simp only [hc b hb, hr]; rfl⟩
      | some r =>
        cases r with
        | error p => exact ⟨some ([], some p), by simp, fun b hb => by simp only [hc b hb, hr]; rfl⟩
        | ok x =>
          obtain ⟨extra, cw⟩ := x
          obtain ⟨l', hgl', hl'⟩ := printH_places f t a sep fails (g + extra) (getWidthCompact cw t.columnCount)
          by_cases he : extra > 0
          · exact ⟨some l', by simpa using hgl', fun b hb => by simp only [hc b hb, hr, he, hl' b hb, if_true]; rfl⟩
          · exact ⟨some l, by simpa using hgl, fun b hb => by simp only [hc b hb, hr, he, hl b hb, if_true, if_false]; rfl⟩

theorem placesV (f : Flags) (t : Table σ ι ν ε) (a : Items) (maxWidth : Int) (sep : GoString) (compact : Bool)
    (fails : Nat → Bool) :
    ∃ l : List (List Place) × Option Panic, (∀ x ∈ l.1, ∀ p ∈ x, p.InRange a.len) ∧ ∀ b, SameWidths f a b →
      mergeRowsVertical f t b maxWidth sep compact fails = ⟨l.1.map (fill (alignmentOf f t) b), l.2⟩ := by
  unfold mergeRowsVertical
  dsimp only
  split
  · rename_i p _; exact ⟨([], some p), by simp, fun b _ => rfl⟩
  · rename_i g hg
    have h1 := initialGroupCount_pos t _ _ _ hg
    obtain ⟨l, hgl, hl⟩ := printV_places f t a sep fails g (getWidthTable t)
    cases compact with
    | false => exact ⟨l, hgl, fun b hb => by simp only [hl b hb]; rfl⟩
    | true =>
      have hc : ∀ b, SameWidths f a b → compactCalcV f t b (maxWidthOf maxWidth) (u16 sep.length) g h1 =
          compactCalcV f t a (maxWidthOf maxWidth) (u16 sep.length) g h1 := fun b hb =>
        compactLoopV_same hb t _ _ _ _ _ _ _ (Nat.le_refl _)
      cases hr : compactCalcV f t a (maxWidthOf maxWidth) (u16 sep.length) g h1 with
      | error p => exact ⟨([], some p), by simp, fun b hb => by simp only [hc b hb, hr]; rfl⟩
      | ok x =>
        obtain ⟨extra, cw⟩ := x
        obtain ⟨l', hgl', hl'⟩ := printV_places f t a sep fails (g + extra) (getWidthCompact cw t.columnCount)
        by_cases he : extra > 0
        · exact ⟨l', hgl', fun b hb => by simp only [hc b hb, hr, he, hl' b hb, if_true]; rfl⟩
        · exact ⟨l, hgl, fun b hb => by simp only [hc b hb, hr, he, hl b hb, if_true, if_false]; rfl⟩

/-! ## The alignments of the package -/

/-- Spaces on the left and on the right that an alignment of the package adds to a text of width `v`. -/
inductive Pads (f : Flags) (al : Alignment) (w v : UInt16) : Nat → Nat → Prop
  | mk (l r : Nat) (h : ∀ s, visualWidth f s = v → al s w = List.replicate l 0x20 ++ s ++ List.replicate r 0x20) :
      Pads f al w v l r

theorem pads_left (f : Flags) (w v : UInt16) : ∃ l r, Pads f (alignmentLeft f) w v l r := by
  by_cases h : v ≥ w
  · exact ⟨0, 0, .mk _ _ fun s hs => by simp [alignmentLeft, hs, h]⟩
  · exact ⟨0, (w - v).toNat, .mk _ _ fun s hs => by simp [alignmentLeft, hs, h, spaces]⟩

theorem pads_right (f : Flags) (w v : UInt16) : ∃ l r, Pads f (alignmentRight f) w v l r := by
  by_cases h : v ≥ w
  · exact ⟨0, 0, .mk _ _ fun s hs => by simp [alignmentRight, hs, h]⟩
  · exact ⟨(w - v).toNat, 0, .mk _ _ fun s hs => by simp [alignmentRight, hs, h, spaces]⟩

theorem pads_center (f : Flags) (w v : UInt16) : ∃ l r, Pads f (alignmentCenter f) w v l r := by
  by_cases h : v ≥ w
  · exact ⟨0, 0, .mk _ _ fun s hs => by simp [alignmentCenter, hs, h]⟩
  · exact ⟨(((w - v).toNat - 1 : Int).tdiv 2 + 1).toNat, ((w - v).toNat - (((w - v).toNat - 1 : Int).tdiv 2 + 1)).toNat,
      .mk _ _ fun s hs => by simp only [alignmentCenter, hs, if_neg h, spaces]⟩

/-- No alignment, or one of the three of the package. -/
def BuiltIn (f : Flags) (al : Option Alignment) : Prop :=
  al = none ∨ al = some (alignmentLeft f) ∨ al = some (alignmentRight f) ∨ al = some (alignmentCenter f)

theorem pads_of {f : Flags} {t : Table σ ι ν ε} (h : ∀ c ∈ t.columns, BuiltIn f c.alignment) (j : Nat) (w v : UInt16) :
    ∃ l r, Pads f (alignmentOf f t j) w v l r := by
  unfold alignmentOf
  cases hc : t.columns[j]? with
  | none => exact pads_left f w v
  | some c =>
    rw [Option.bind_some]
    rcases h c (List.mem_of_getElem? hc) with e | e | e | e <;> rw [e]
    · exact pads_left f w v
    · exact pads_left f w v
    · exact pads_right f w v
    · exact pads_center f w v

theorem cellOf_width {f : Flags} {a b : Items} (h : SameWidths f a b) {i : Nat} (hi : i < a.len) (j : Nat) :
    visualWidth f (cellOf b i j) = visualWidth f (cellOf a i j) := by
  have : ((a.get i).map (visualWidth f))[j]? = ((b.get i).map (visualWidth f))[j]? := by rw [h.2 i hi]
  rw [List.getElem?_map, List.getElem?_map] at this
  unfold cellOf
  cases ha : (a.get i)[j]? <;> cases hb : (b.get i)[j]? <;> rw [ha, hb] at this <;> simp at this ⊢
  exact this.symm

/-- With the alignments of the package every place can be given its spaces. -/
theorem fixed_places {f : Flags} {t : Table σ ι ν ε} (h : ∀ c ∈ t.columns, BuiltIn f c.alignment) (a : Items) :
    ∀ line : List Place, (∀ p ∈ line, p.InRange a.len) → ∃ line', (∀ p ∈ line', p.Fixed) ∧
      ∀ b, SameWidths f a b → fill (alignmentOf f t) b line = fill (alignmentOf f t) b line' := by
  intro line
  induction line with
  | nil => intro _; exact ⟨[], by simp, fun b _ => rfl⟩
  | cons p line ih =>
    intro hr
    obtain ⟨line', h1, h2⟩ := ih fun q hq => hr q (List.mem_cons_of_mem _ hq)
    have keep : p.Fixed → ∃ line', (∀ p ∈ line', p.Fixed) ∧
        ∀ b, SameWidths f a b → fill (alignmentOf f t) b (p :: line) = fill (alignmentOf f t) b line' := fun hp =>
      ⟨p :: line', by simpa using ⟨hp, h1⟩, fun b hb => by rw [fill_cons, fill_cons, h2 b hb]⟩
    cases p with
    | text s => exact keep trivial
    | gap n => exact keep trivial
    | cell i j => exact keep trivial
    | aligned i j w =>
      obtain ⟨l, r, hp⟩ := pads_of h j w (visualWidth f (cellOf a i j))
      obtain ⟨hp⟩ := hp
      refine ⟨.gap l :: .cell i j :: .gap r :: line', ?_, fun b hb => ?_⟩
      · simp only [List.mem_cons, forall_eq_or_imp]
        exact ⟨trivial, trivial, trivial, h1⟩
      · have e : shown (alignmentOf f t) b (.aligned i j w) = _ := hp _ (cellOf_width hb (hr _ List.mem_cons_self) j)
        rw [fill_cons, fill_cons, fill_cons, fill_cons, h2 b hb, e]
        simp only [shown, List.append_assoc]

theorem fixed_lines {f : Flags} {t : Table σ ι ν ε} (h : ∀ c ∈ t.columns, BuiltIn f c.alignment) (a : Items) :
    ∀ lines : List (List Place), (∀ x ∈ lines, ∀ p ∈ x, p.InRange a.len) → ∃ lines' : List (List Place), (∀ x ∈ lines', ∀ p ∈ x, p.Fixed) ∧
      ∀ b, SameWidths f a b → lines.map (fill (alignmentOf f t) b) = lines'.map (fill (alignmentOf f t) b) := by
  intro lines
  induction lines with
  | nil => intro _; exact ⟨[], by simp, fun b _ => rfl⟩
  | cons x lines ih =>
    intro hr
    obtain ⟨lines', h1, h2⟩ := ih fun y hy => hr y (List.mem_cons_of_mem _ hy)
    obtain ⟨x', h3, h4⟩ := fixed_places h a x (hr x List.mem_cons_self)
    refine ⟨x' :: lines', fun y hy => ?_, fun b hb => by rw [List.map_cons, List.map_cons, h2 b hb, h4 b hb]⟩
    rcases List.mem_cons.mp hy with rfl | hy
    · exact h3
    · exact h1 y hy

/-! ## Merges -/

/-- C108. For every list of items there are lines with places for cells, such that the merge of every list of equally wide
cells prints these lines, filled in with the aligned cells, and ends in the same way. (`none`: the search of a compact
merge is still going on after `fuel` rounds.) -/
theorem C108_horizontal (f : Flags) (t : Table σ ι ν ε) (a : Items) (maxWidth : Int) (sep : GoString) (compact : Bool)
    (fails : Nat → Bool) (fuel : Nat) :
    ∃ l : Option (List (List Place) × Option Panic), ∀ b, SameWidths f a b →
      mergeRowsHorizontal f t b maxWidth sep compact fails fuel =
        l.map fun x => ⟨x.1.map (fill (alignmentOf f t) b), x.2⟩ :=
  (placesH f t a maxWidth sep compact fails fuel).imp fun _ h => h.2

/-- C108. The same for the vertical merge. -/
theorem C108_vertical (f : Flags) (t : Table σ ι ν ε) (a : Items) (maxWidth : Int) (sep : GoString) (compact : Bool)
    (fails : Nat → Bool) :
    ∃ l : List (List Place) × Option Panic, ∀ b, SameWidths f a b →
      mergeRowsVertical f t b maxWidth sep compact fails = ⟨l.1.map (fill (alignmentOf f t) b), l.2⟩ :=
  (placesV f t a maxWidth sep compact fails).imp fun _ h => h.2

/-- C108. With the alignments of the package the lines consist of fixed text, fixed numbers of spaces and the cells as they
are. -/
theorem C108_built_in (f : Flags) (t : Table σ ι ν ε) (h : ∀ c ∈ t.columns, BuiltIn f c.alignment) (a : Items)
    (maxWidth : Int) (sep : GoString) (compact : Bool) (fails : Nat → Bool) (fuel : Nat) (al : Nat → Alignment) :
    (∃ l : Option (List (List Place) × Option Panic), (∀ y ∈ l, ∀ x ∈ y.1, ∀ p ∈ x, p.Fixed) ∧
      ∀ b, SameWidths f a b → mergeRowsHorizontal f t b maxWidth sep compact fails fuel =
        l.map fun x => ⟨x.1.map (fill al b), x.2⟩) ∧
    (∃ l : List (List Place) × Option Panic, (∀ x ∈ l.1, ∀ p ∈ x, p.Fixed) ∧
      ∀ b, SameWidths f a b → mergeRowsVertical f t b maxWidth sep compact fails = ⟨l.1.map (fill al b), l.2⟩) := by
  have hal : ∀ (lines : List (List Place)), (∀ x ∈ lines, ∀ p ∈ x, p.Fixed) → ∀ b,
      lines.map (fill (alignmentOf f t) b) = lines.map (fill al b) := fun lines hf b => by
    refine List.map_congr_left fun x hx => ?_
    unfold fill
    congr 1
    refine List.map_congr_left fun p hp => ?_
    have := hf x hx p hp
    cases p <;> first | rfl | exact absurd this id
  constructor
  · obtain ⟨l, h1, h2⟩ := placesH f t a maxWidth sep compact fails fuel
    cases l with
    | none => exact ⟨none, by simp, h2⟩
    | some l =>
      obtain ⟨ls, h3, h4⟩ := fixed_lines h a l.1 (h1 l rfl)
      refine ⟨some (ls, l.2), by simpa using h3, fun b hb => ?_⟩
      rw [h2 b hb, Option.map_some, Option.map_some, h4 b hb, hal ls h3]
  · obtain ⟨l, h1, h2⟩ := placesV f t a maxWidth sep compact fails
    obtain ⟨ls, h3, h4⟩ := fixed_lines h a l.1 h1
    refine ⟨(ls, l.2), h3, fun b hb => ?_⟩
    rw [h2 b hb, h4 b hb, hal ls h3]

/-! ## Cells that are equally wide -/

theorem same_of_pairs {f : Flags} {a b : Items} (hl : a.len = b.len)
    (hn : ∀ i : Nat, i < a.len → (a.get i).length = (b.get i).length)
    (h : ∀ i : Nat, i < a.len → ∀ p ∈ (a.get i).zip (b.get i), visualWidth f p.1 = visualWidth f p.2) :
    SameWidths f a b := by
  refine ⟨hl, fun i hi => ?_⟩
  have h1 := hn i hi
  have h2 := h i hi
  generalize a.get i = x at h1 h2
  generalize b.get i = y at h1 h2
  induction x generalizing y with
  | nil => cases y with
    | nil => rfl
    | cons => cases h1
  | cons s x ih => cases y with
    | nil => cases h1
    | cons u y =>
      rw [List.map_cons, List.map_cons, ih y (by simpa using h1) fun p hp => h2 p (by simp [hp]), h2 (s, u) (by simp)]

/-- C108. Lists of canonically equivalent cells are such lists, without the East Asian flag. -/
theorem C108_equivalent (f : Flags) (hf : f.eastAsianWidth = false) (a b : Items) (hl : a.len = b.len)
    (hn : ∀ i : Nat, i < a.len → (a.get i).length = (b.get i).length)
    (h : ∀ i : Nat, i < a.len → ∀ p ∈ (a.get i).zip (b.get i),
      Reordered ((runes p.1).flatMap spelledOut) ((runes p.2).flatMap spelledOut) ∧
      (∀ r ∈ runes p.1, ¬ InIntervals r doubleMarks) ∧
      ((∀ r ∈ runes p.1, r ∉ contextual) ∨ 0x200D ∉ runes p.1) ∧
      ((∀ r ∈ runes p.2, r ∉ contextual) ∨ 0x200D ∉ runes p.2) ∧
      ∀ r ∈ runes p.1 ++ runes p.2, r ≠ 0x1B ∧ r ≠ 0x9B) : SameWidths f a b := by
  refine same_of_pairs hl hn fun i hi p hp => ?_
  obtain ⟨e1, e2, e3, e4, e5⟩ := h i hi p hp
  rw [C13_no_introducer f p.1 fun r hr => e5 r (List.mem_append_left _ hr),
    C13_no_introducer f p.2 fun r hr => e5 r (List.mem_append_right _ hr), C107_equivalent f hf p.1 p.2 e1 e2 e3 e4]

/-- C108. So are lists of cells that differ in their colour sequences only: the texts between them are the same, contain no
introducer, and do not begin with an extending character behind a sequence. -/
theorem C108_recoloured (f : Flags) (a b : Items) (hl : a.len = b.len)
    (hn : ∀ i : Nat, i < a.len → (a.get i).length = (b.get i).length)
    (h : ∀ i : Nat, i < a.len → ∀ p ∈ (a.get i).zip (b.get i),
      ∃ (s0 u0 : GoString) (x y : List (List GoString × GoString)), p.1 = coloured s0 x ∧ p.2 = coloured u0 y ∧
      (s0 :: x.map (·.2)).filter (· ≠ []) = (u0 :: y.map (·.2)).filter (· ≠ []) ∧
      (∀ r ∈ runes s0 ++ runes u0, r ≠ 0x1B ∧ r ≠ 0x9B) ∧
      ∀ e ∈ x ++ y, (∀ q ∈ e.1, Param q) ∧ (∀ r ∈ runes e.2, r ≠ 0x1B ∧ r ≠ 0x9B) ∧ ¬ StartsExtending e.2) :
    SameWidths f a b := by
  refine same_of_pairs hl hn fun i hi p hp => ?_
  obtain ⟨s0, u0, x, y, e1, e2, e4, e5, e6⟩ := h i hi p hp
  have H : ∀ l : List GoString, (l.map (stringWidth f)).sum = ((l.filter (· ≠ [])).map (stringWidth f)).sum := by
    intro l
    induction l with
    | nil => rfl
    | cons s l ih =>
      by_cases hs : s = []
      · subst hs
        rw [List.map_cons, List.sum_cons, ih, List.filter_cons_of_neg (by simp)]
        rw [show stringWidth f [] = 0 from by simp [stringWidth_nil], Nat.zero_add]
      · rw [List.filter_cons_of_pos (by simpa using hs), List.map_cons, List.map_cons, List.sum_cons, List.sum_cons, ih]
  have hx := H (s0 :: x.map (·.2))
  have hy := H (u0 :: y.map (·.2))
  rw [List.map_cons, List.map_map, List.sum_cons] at hx hy
  rw [e1, e2, C14_sgr_invisible f s0 x (fun r hr => e5 r (List.mem_append_left _ hr))
      fun e he => e6 e (List.mem_append_left _ he),
    C14_sgr_invisible f u0 y (fun r hr => e5 r (List.mem_append_right _ hr)) fun e he => e6 e (List.mem_append_right _ he)]
  refine congrArg UInt16.ofNat (hx.trans (Eq.trans ?_ hy.symm))
  rw [e4]

/-! ## Examples -/

/-- The items of the examples, coloured and with other letters. -/
def paintedItems : Items :=
  { len := 5
    get := fun k => [[lit "\x1b[1;31mx\x1b[0m", lit "1"], [lit "\x1b[32m中\x1b[m文", lit "2"], [lit "y", lit "\x1b[4m33\x1b[m"],
      [lit "e\u0301z", lit "4"], [lit "\u00e9", lit "5"]].getD k.toNat [] }

theorem painted_same : SameWidths exampleFlags exampleItems paintedItems := by
  refine ⟨rfl, fun i hi => ?_⟩
  have : i < 5 := hi
  match i, this with
  | 0, _ | 1, _ | 2, _ | 3, _ | 4, _ => decide +kernel

theorem exampleTable_builtIn : ∀ c ∈ exampleTable.columns, BuiltIn exampleFlags c.alignment := by
  intro c hc
  rcases List.mem_cons.mp hc with rfl | hc
  · exact .inl rfl
  · rw [List.mem_singleton.mp hc]; exact .inr (.inr (.inl rfl))

/-- The same lines around different cells, in compact merges that use more groups than the recorded widths allow. -/
example :
    mergeRowsHorizontal exampleFlags exampleTable exampleItems 17 (lit "|") true (fun _ => false) 9 = some
      ⟨[lit "x  1|中文 2|y 33\n", lit "zz 4|w    5|\n"], none⟩ ∧
    mergeRowsHorizontal exampleFlags exampleTable paintedItems 17 (lit "|") true (fun _ => false) 9 = some
      ⟨[lit "\x1b[1;31mx\x1b[0m  1|\x1b[32m中\x1b[m文 2|y \x1b[4m33\x1b[m\n", lit "e\u0301z 4|\u00e9    5|\n"], none⟩ ∧
    mergeRowsVertical exampleFlags exampleTable exampleItems 20 (lit "|") true (fun _ => false) =
      ⟨[lit "x    1|y  33|w 5\n", lit "中文 2|zz  4|\n"], none⟩ ∧
    mergeRowsVertical exampleFlags exampleTable paintedItems 20 (lit "|") true (fun _ => false) =
      ⟨[lit "\x1b[1;31mx\x1b[0m    1|y  \x1b[4m33\x1b[m|\u00e9 5\n", lit "\x1b[32m中\x1b[m文 2|e\u0301z  4|\n"], none⟩ := by
  refine ⟨?_, ?_, ?_, ?_⟩ <;> decide +kernel

/-- Cells as in `C108_equivalent` and in `C108_recoloured`. -/
example : Reordered ((runes (lit "\u00e9z")).flatMap spelledOut) ((runes (lit "e\u0301z")).flatMap spelledOut) := by
  rw [show (runes (lit "\u00e9z")).flatMap spelledOut = (runes (lit "e\u0301z")).flatMap spelledOut by decide +kernel]
  exact .refl _

example : lit "\x1b[1;31mx\x1b[0m" = coloured [] [([lit "1", lit "31"], lit "x"), ([lit "0"], [])] ∧
    lit "x" = coloured (lit "x") [] ∧
    ([] :: [([lit "1", lit "31"], lit "x"), ([lit "0"], [])].map (·.2)).filter (· ≠ []) =
      (lit "x" :: ([] : List (List GoString × GoString)).map (·.2)).filter (· ≠ []) := by decide +kernel

end GoTable
