import Verif.Spec.Layout
/-!
# The layout of merged output
-/

namespace GoTable
open Spec

variable {σ ι ν ε : Type}

theorem cellAt_eq {f : Flags} {a b : List GoString} (h : a.map (visualWidth f) = b.map (visualWidth f)) (j : Nat) :
    (∃ p, cellAt a j = .error p ∧ cellAt b j = .error p) ∨
    ∃ s, cellAt a j = .ok s ∧ cellAt b j = .ok ((b[j]?).getD []) ∧ visualWidth f s = visualWidth f ((b[j]?).getD []) := by
  have : (a.map (visualWidth f))[j]? = (b.map (visualWidth f))[j]? := by rw [h]
  rw [List.getElem?_map, List.getElem?_map] at this
  unfold cellAt
  cases ha : a[j]? <;> cases hb : b[j]? <;> rw [ha, hb] at this
  · exact .inl ⟨_, rfl, rfl⟩
  · simp at this
  · simp at this
  · exact .inr ⟨_, rfl, rfl, by simpa using this⟩

theorem maxCellWidthH_same {f : Flags} {a b : Items} (h : SameWidths f a b) (j g : Nat) :
    ∀ (n i : Nat) (mw : UInt16), a.len - i ≤ n → maxCellWidthH f b j g i mw = maxCellWidthH f a j g i mw := by
  intro n
  induction n with
  | zero =>
    intro i mw hn
    rw [maxCellWidthH, maxCellWidthH, dif_neg (by rw [← h.1]; omega), dif_neg (by omega)]
  | succ n ih =>
    intro i mw hn
    rw [maxCellWidthH, maxCellWidthH]
    by_cases hc : i < a.len ∧ 0 < g
    · rw [dif_pos (by rw [← h.1]; exact hc), dif_pos hc]
      rcases cellAt_eq (h.2 i hc.1) j with ⟨p, h1, h2⟩ | ⟨s, h1, h2, h3⟩
      · rw [h1, h2]
      · rw [h1, h2]
        dsimp only
        rw [h3]
        exact ih _ _ (by omega)
    · rw [dif_neg (by rw [← h.1]; exact hc), dif_neg hc]

theorem mergedRowsWidthH_same {f : Flags} {a b : Items} (h : SameWidths f a b) (t : Table σ ι ν ε) (g : Nat) :
    mergedRowsWidthH f t b g = mergedRowsWidthH f t a g := by
  unfold mergedRowsWidthH
  have : ∀ j i mw, maxCellWidthH f b j g i mw = maxCellWidthH f a j g i mw := fun j i mw =>
    maxCellWidthH_same h j g _ i mw (Nat.le_refl _)
  simp only [this]

theorem compactLoopH_same {f : Flags} {a b : Items} (h : SameWidths f a b) (t : Table σ ι ν ε) (mw m : UInt16) (g : Nat) :
    ∀ (fuel e : Nat) (cw : List UInt16), compactLoopH f t b mw m g fuel e cw = compactLoopH f t a mw m g fuel e cw := by
  intro fuel
  induction fuel with
  | zero => intros; rfl
  | succ n ih =>
    intro e cw
    rw [compactLoopH, compactLoopH, mergedRowsWidthH_same h]
    simp only [ih]

theorem maxCellWidthV_same {f : Flags} {a b : Items} (h : SameWidths f a b) (j e : Nat) (he : e ≤ a.len) :
    ∀ (n i : Nat) (mw : UInt16), e - i ≤ n → maxCellWidthV f b j e i mw = maxCellWidthV f a j e i mw := by
  intro n
  induction n with
  | zero =>
    intro i mw hn
    rw [maxCellWidthV, maxCellWidthV, if_neg (by omega), if_neg (by omega)]
  | succ n ih =>
    intro i mw hn
    rw [maxCellWidthV, maxCellWidthV]
    by_cases hc : i < e
    · rw [if_pos hc, if_pos hc]
      rcases cellAt_eq (h.2 i (by omega)) j with ⟨p, h1, h2⟩ | ⟨s, h1, h2, h3⟩
      · rw [h1, h2]
      · rw [h1, h2]
        dsimp only
        rw [h3]
        exact ih _ _ (by omega)
    · rw [if_neg hc, if_neg hc]

theorem mergedRowsWidthV_same {f : Flags} {a b : Items} (h : SameWidths f a b) (t : Table σ ι ν ε) (g : Nat) :
    mergedRowsWidthV f t b g = mergedRowsWidthV f t a g := by
  unfold mergedRowsWidthV
  rw [← h.1]
  dsimp only
  split
  · rfl
  · split
    · rfl
    · have : ∀ k j i mw, maxCellWidthV f b j (if (k + 1) * (lineCountOf a.len g).toNat > a.len then a.len
          else (k + 1) * (lineCountOf a.len g).toNat) i mw = maxCellWidthV f a j (if (k + 1) * (lineCountOf a.len g).toNat >
          a.len then a.len else (k + 1) * (lineCountOf a.len g).toNat) i mw := fun k j i mw =>
        maxCellWidthV_same h j _ (by split <;> omega) _ i mw (Nat.le_refl _)
      simp only [this]

theorem compactLoopV_of_error {f : Flags} {a : Items} {t : Table σ ι ν ε} {mw m : UInt16} {g : Nat} (hg : 1 ≤ g) {e : Nat}
    {cw : List UInt16} {p : Panic} (h : mergedRowsWidthV f t a (g + e + 1) = .error p) :
    compactLoopV f t a mw m g hg e cw = .error p := by
  rw [compactLoopV]
  split <;> simp_all

theorem compactLoopV_of_none {f : Flags} {a : Items} {t : Table σ ι ν ε} {mw m : UInt16} {g : Nat} (hg : 1 ≤ g) {e : Nat}
    {cw : List UInt16} (h : mergedRowsWidthV f t a (g + e + 1) = .ok none) :
    compactLoopV f t a mw m g hg e cw = .ok (e, cw) := by
  rw [compactLoopV]
  split <;> simp_all

theorem compactLoopV_of_some {f : Flags} {a : Items} {t : Table σ ι ν ε} {mw m : UInt16} {g : Nat} (hg : 1 ≤ g) {e : Nat}
    {cw : List UInt16} {c : List UInt16} (h : mergedRowsWidthV f t a (g + e + 1) = .ok (some c)) :
    compactLoopV f t a mw m g hg e cw =
      if compactTotal m (UInt16.ofNat t.columnCount) (g + e + 1) c > mw then .ok (e, cw)
      else compactLoopV f t a mw m g hg (e + 1) c := by
  rw [compactLoopV]
  split
  · simp_all
  · simp_all
  · rename_i h'
    rw [h] at h'
    cases h'
    rfl

theorem compactLoopV_same {f : Flags} {a b : Items} (h : SameWidths f a b) (t : Table σ ι ν ε) (mw m : UInt16) (g : Nat)
    (hg : 1 ≤ g) : ∀ (n e : Nat) (cw : List UInt16), a.len - e ≤ n →
      compactLoopV f t b mw m g hg e cw = compactLoopV f t a mw m g hg e cw := by
  intro n
  induction n with
  | zero =>
    intro e cw hn
    have hs := mergedRowsWidthV_same h t (g + e + 1)
    cases hm : mergedRowsWidthV f t a (g + e + 1) with
    | error p => rw [compactLoopV_of_error hg hm, compactLoopV_of_error hg (hs.trans hm)]
    | ok o =>
      cases o with
      | none => rw [compactLoopV_of_none hg hm, compactLoopV_of_none hg (hs.trans hm)]
      | some x =>
        have := mergedRowsWidthV_some_le f t a _ _ (by omega) hm
        omega
  | succ n ih =>
    intro e cw hn
    have hs := mergedRowsWidthV_same h t (g + e + 1)
    cases hm : mergedRowsWidthV f t a (g + e + 1) with
    | error p => rw [compactLoopV_of_error hg hm, compactLoopV_of_error hg (hs.trans hm)]
    | ok o =>
      cases o with
      | none => rw [compactLoopV_of_none hg hm, compactLoopV_of_none hg (hs.trans hm)]
      | some x =>
        have := mergedRowsWidthV_some_le f t a _ _ (by omega) hm
        rw [compactLoopV_of_some hg hm, compactLoopV_of_some hg (hs.trans hm), ih (e + 1) x (by omega)]

/-! ## Places -/

/-- Lines joined by a text. -/
def joinPlaces (sep : GoString) : List (List Place) → List Place
  | [] => []
  | [p] => p
  | p :: q :: ps => p ++ .text sep :: joinPlaces sep (q :: ps)

theorem fill_nil (al : Nat → Alignment) (b : Items) : fill al b [] = [] := rfl

theorem fill_cons (al : Nat → Alignment) (b : Items) (p : Place) (q : List Place) :
    fill al b (p :: q) = shown al b p ++ fill al b q := rfl

theorem fill_append (al : Nat → Alignment) (b : Items) (p q : List Place) :
    fill al b (p ++ q) = fill al b p ++ fill al b q := by
  unfold fill
  rw [List.map_append, List.flatten_append]

theorem fill_join (al : Nat → Alignment) (b : Items) (sep : GoString) (l : List (List Place)) :
    fill al b (joinPlaces sep l) = join sep (l.map (fill al b)) := by
  induction l with
  | nil => rfl
  | cons p l ih =>
    cases l with
    | nil => rfl
    | cons q l => rw [joinPlaces, fill_append, fill_cons, ih]; simp [join, shown]

/-- All places are in range. -/
def Good (n : Nat) (r : Except Panic (List (List Place))) : Prop :=
  ∀ l, r = .ok l → ∀ x ∈ l, ∀ p ∈ x, p.InRange n

theorem good_error (n : Nat) (p : Panic) : Good n (.error p) := fun _ h => by cases h

theorem good_nil (n : Nat) : Good n (.ok []) := fun l h => by cases h; simp

theorem good_cons {n : Nat} {x : List Place} {l : List (List Place)} (hx : ∀ p ∈ x, p.InRange n) (hl : Good n (.ok l)) :
    Good n (.ok (x :: l)) := fun l' h => by
  cases h
  intro y hy
  rcases List.mem_cons.mp hy with rfl | hy
  · exact hx
  · exact hl l rfl y hy

theorem joinPlaces_range {n : Nat} (sep : GoString) {l : List (List Place)} (h : ∀ x ∈ l, ∀ p ∈ x, p.InRange n) :
    ∀ p ∈ joinPlaces sep l, p.InRange n := by
  induction l with
  | nil => simp [joinPlaces]
  | cons x l ih =>
    cases l with
    | nil => exact h x List.mem_cons_self
    | cons y l =>
      intro p hp
      rw [joinPlaces, List.mem_append, List.mem_cons] at hp
      rcases hp with hp | rfl | hp
      · exact h x List.mem_cons_self p hp
      · trivial
      · exact ih (fun x hx => h x (List.mem_cons_of_mem _ hx)) p hp

theorem renderCells_places (f : Flags) (t : Table σ ι ν ε) (a : Items) (gw : Nat → Nat → Except Panic UInt16) (g i : Nat)
    (hi : i < a.len) : ∀ (cols : List (Column σ ι ν ε)) (j : Nat), cols = t.columns.drop j →
      ∃ r : Except Panic (List (List Place)), Good a.len r ∧ ∀ b, SameWidths f a b →
        renderCells f gw g (b.get i) cols j = r.map (List.map (fill (alignmentOf f t) b)) := by
  intro cols
  induction cols with
  | nil => intro j _; exact ⟨.ok [], good_nil _, fun b _ => rfl⟩
  | cons c cols ih =>
    intro j hj
    have hc : t.columns[j]? = some c := by
      have := congrArg List.head? hj
      rw [List.head?_drop] at this
      exact this.symm
    have hd : cols = t.columns.drop (j + 1) := by
      have := congrArg List.tail hj
      rw [List.tail_drop] at this
      exact this
    obtain ⟨r, hgr, hr⟩ := ih (j + 1) hd
    cases hca : cellAt (a.get i) j with
    | error p =>
      refine ⟨.error p, good_error _ _, fun b hb => ?_⟩
      rcases cellAt_eq (hb.2 i hi) j with ⟨q, h1, h2⟩ | ⟨s, h1, h2, h3⟩
      · rw [hca] at h1
        cases h1
        rw [renderCells, h2]; rfl
      · rw [hca] at h1; cases h1
    | ok s =>
      cases hg : gw j g with
      | error p =>
        refine ⟨.error p, good_error _ _, fun b hb => ?_⟩
        rcases cellAt_eq (hb.2 i hi) j with ⟨q, h1, h2⟩ | ⟨s, h1, h2, h3⟩
        · rw [hca] at h1; cases h1
        · rw [renderCells, h2, hg]; rfl
      | ok w =>
        cases r with
        | error p =>
          refine ⟨.error p, good_error _ _, fun b hb => ?_⟩
          rcases cellAt_eq (hb.2 i hi) j with ⟨q, h1, h2⟩ | ⟨s, h1, h2, h3⟩
          · rw [hca] at h1; cases h1
          · rw [renderCells, h2, hg, hr b hb]; rfl
        | ok l =>
          refine ⟨.ok ([.aligned i j w] :: l), good_cons (fun p hp => by rw [List.mem_singleton] at hp; rw [hp]; exact hi) hgr, fun b hb => ?_⟩
          rcases cellAt_eq (hb.2 i hi) j with ⟨q, h1, h2⟩ | ⟨s, h1, h2, h3⟩
          · rw [hca] at h1; cases h1
          · rw [renderCells, h2, hg, hr b hb]
            have hal : alignmentOf f t j = match c.alignment with
                | none => alignmentLeft f
                | some al => al := by
              unfold alignmentOf
              rw [hc, Option.bind_some]
              cases c.alignment <;> rfl
            show Except.ok _ = Except.ok _
            rw [List.map_cons, fill_cons, fill_nil, List.append_nil, shown, hal]
            rfl

theorem lineGroups_places (f : Flags) (t : Table σ ι ν ε) (a : Items) (gw : Nat → Nat → Except Panic UInt16)
    (index : Nat → Nat) (gc : Nat) : ∀ (n g : Nat), gc - g ≤ n →
      ∃ r : Except Panic (List (List Place)), Good a.len r ∧ ∀ b, SameWidths f a b →
        lineGroups f t b gw index gc g = r.map (List.map (fill (alignmentOf f t) b)) := by
  intro n
  induction n with
  | zero =>
    intro g hn
    refine ⟨.ok [], good_nil _, fun b _ => ?_⟩
    rw [lineGroups, if_neg (by omega)]
    rfl
  | succ n ih =>
    intro g hn
    by_cases hg : g < gc
    · by_cases hx : index g ≥ a.len
      · refine ⟨.ok [[]], good_cons (by simp) (good_nil _), fun b hb => ?_⟩
        rw [lineGroups, if_pos hg]
        dsimp only
        rw [if_pos (by rw [← hb.1]; exact hx)]
        rfl
      · obtain ⟨r, hgr, hr⟩ := renderCells_places f t a gw g (index g) (by omega) t.columns 0 rfl
        obtain ⟨r', hgr', hr'⟩ := ih (g + 1) (by omega)
        cases r with
        | error p =>
          refine ⟨.error p, good_error _ _, fun b hb => ?_⟩
          rw [lineGroups, if_pos hg]
          dsimp only
          rw [if_neg (by rw [← hb.1]; exact hx), hr b hb]
          rfl
        | ok l =>
          cases r' with
          | error p =>
            refine ⟨.error p, good_error _ _, fun b hb => ?_⟩
            rw [lineGroups, if_pos hg]
            dsimp only
            rw [if_neg (by rw [← hb.1]; exact hx), hr b hb, hr' b hb]
            rfl
          | ok l' =>
            refine ⟨.ok (joinPlaces innerSep l :: l'), good_cons (joinPlaces_range _ (hgr l rfl)) hgr', fun b hb => ?_⟩
            rw [lineGroups, if_pos hg]
            dsimp only
            rw [if_neg (by rw [← hb.1]; exact hx), hr b hb, hr' b hb]
            show Except.ok _ = Except.ok _
            rw [List.map_cons, fill_join]
    · refine ⟨.ok [], good_nil _, fun b _ => ?_⟩
      rw [lineGroups, if_neg hg]
      rfl

/-- A run that fills in lines. -/
def filled (al : Nat → Alignment) (b : Items) (l : List (List Place) × Option Panic) : MergeRun :=
  ⟨l.1.map (fill al b), l.2⟩

theorem writeLines_places (f : Flags) (t : Table σ ι ν ε) (a : Items) (sep : GoString) (fails : Nat → Bool)
    (line : Items → Nat → Except Panic (List GoString))
    (hl : ∀ k, ∃ r : Except Panic (List (List Place)), Good a.len r ∧ ∀ b, SameWidths f a b →
      line b k = r.map (List.map (fill (alignmentOf f t) b))) (lc : Nat) :
    ∀ (n k : Nat), lc - k ≤ n → ∃ l, (∀ x ∈ l.1, ∀ p ∈ x, p.InRange a.len) ∧ ∀ b, SameWidths f a b →
      writeLines sep (line b) fails lc k = filled (alignmentOf f t) b l := by
  intro n
  induction n with
  | zero =>
    intro k hn
    refine ⟨([], none), by simp, fun b _ => ?_⟩
    rw [writeLines, if_neg (by omega)]
    rfl
  | succ n ih =>
    intro k hn
    by_cases hk : k < lc
    · obtain ⟨r, hgr, hr⟩ := hl k
      obtain ⟨l', hgl', hl'⟩ := ih (k + 1) (by omega)
      cases r with
      | error p =>
        refine ⟨([], some p), by simp, fun b hb => ?_⟩
        rw [writeLines, if_pos hk, hr b hb]
        rfl
      | ok l =>
        have he : ∀ b, join sep (l.map (fill (alignmentOf f t) b)) ++ lit "\n" =
            fill (alignmentOf f t) b (joinPlaces sep l ++ [.text (lit "\n")]) := by
          intro b
          rw [fill_append, fill_join, fill_cons, fill_nil, List.append_nil]; rfl
        have hg : ∀ p ∈ joinPlaces sep l ++ [.text (lit "\n")], p.InRange a.len := by
          intro p hp
          rcases List.mem_append.mp hp with hp | hp
          · exact joinPlaces_range _ (hgr l rfl) p hp
          · rw [List.mem_singleton] at hp; rw [hp]; trivial
        cases hf : fails k with
        | true =>
          refine ⟨([joinPlaces sep l ++ [.text (lit "\n")]], some .write), by simpa using hg, fun b hb => ?_⟩
          rw [writeLines, if_pos hk, hr b hb]
          simp only [Except.map, hf, if_true, he]
          rfl
        | false =>
          refine ⟨((joinPlaces sep l ++ [.text (lit "\n")]) :: l'.1, l'.2), fun x hx => ?_, fun b hb => ?_⟩
          · rcases List.mem_cons.mp hx with rfl | hx
            · exact hg
            · exact hgl' x hx
          rw [writeLines, if_pos hk, hr b hb]
          simp only [Except.map, hf, hl' b hb, he]
          rfl
    · refine ⟨([], none), by simp, fun b _ => ?_⟩
      rw [writeLines, if_neg hk]
      rfl

theorem printH_places (f : Flags) (t : Table σ ι ν ε) (a : Items) (sep : GoString) (fails : Nat → Bool) (gc : Nat)
    (gw : Nat → Nat → Except Panic UInt16) :
    ∃ l, (∀ x ∈ l.1, ∀ p ∈ x, p.InRange a.len) ∧ ∀ b, SameWidths f a b → printH f t b sep fails gc gw = filled (alignmentOf f t) b l := by
  obtain ⟨l, hgl, hl⟩ := writeLines_places f t a sep fails (fun b k => lineGroups f t b gw (indexH gc k) gc 0)
    (fun k => lineGroups_places f t a gw (indexH gc k) gc _ 0 (Nat.le_refl _)) (lineCountOf a.len gc).toNat _ 0
    (Nat.le_refl _)
  exact ⟨l, hgl, fun b hb => by rw [← hl b hb]; unfold printH; rw [← hb.1]⟩

theorem printV_places (f : Flags) (t : Table σ ι ν ε) (a : Items) (sep : GoString) (fails : Nat → Bool) (gc : Nat)
    (gw : Nat → Nat → Except Panic UInt16) :
    ∃ l, (∀ x ∈ l.1, ∀ p ∈ x, p.InRange a.len) ∧ ∀ b, SameWidths f a b → printV f t b sep fails gc gw = filled (alignmentOf f t) b l := by
  obtain ⟨l, hgl, hl⟩ := writeLines_places f t a sep fails
    (fun b k => lineGroups f t b gw (indexV (lineCountOf a.len gc).toNat k) gc 0)
    (fun k => lineGroups_places f t a gw (indexV (lineCountOf a.len gc).toNat k) gc _ 0 (Nat.le_refl _))
    (lineCountOf a.len gc).toNat _ 0 (Nat.le_refl _)
  exact ⟨l, hgl, fun b hb => by rw [← hl b hb]; unfold printV; rw [← hb.1]⟩

end GoTable
