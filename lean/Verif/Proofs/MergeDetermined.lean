import Verif.Proofs.MergeRun
/-! The description of merged listings leaves no choice. -/

namespace GoTable
open Spec

variable {σ ι ν ε : Type}

theorem chosen_unique {f : Flags} {t : Table σ ι ν ε} {items : Items} {arg : Int} {sepLen : Nat} {compact : Bool}
    {groupOf : Nat → Nat → Nat} {usable : Nat → Prop} {g g' : Nat} {w w' : Nat → Nat → UInt16}
    (h : Chosen f t items arg sepLen compact groupOf usable g w)
    (h' : Chosen f t items arg sepLen compact groupOf usable g' w') :
    g = g' ∧ ∀ j c, j < g → c < t.columns.length → w j c = w' j c := by
  have hg : g = g' := by
    cases compact with
    | false => rw [h.plain rfl, h'.plain rfl]
    | true =>
      rcases Nat.lt_trichotomy g g' with hlt | heq | hgt
      · exact absurd (h'.fits (g + 1) (by have := h.atLeast; omega) (by omega)) (h.stop rfl)
      · exact heq
      · exact absurd (h.fits (g' + 1) (by have := h'.atLeast; omega) (by omega)) (h'.stop rfl)
  subst hg
  refine ⟨rfl, fun j c hj hc => ?_⟩
  rcases Nat.lt_or_ge (plainGroups (clamped arg) sepLen (pitch t sepLen)) g with hlt | hge
  · exact widest_unique (h.widest hlt) (h'.widest hlt) j c hj hc
  · have heq : g = plainGroups (clamped arg) sepLen (pitch t sepLen) := by have := h.atLeast; omega
    have hcol : t.columns[c]? = some t.columns[c] := List.getElem?_eq_getElem hc
    rw [h.recorded heq j c _ hcol, h'.recorded heq j c _ hcol]

theorem mapIdx_congr {α β : Type} {F G : Nat → α → β} (l : List α) (h : ∀ i x, i < l.length → F i x = G i x) :
    l.mapIdx F = l.mapIdx G := by
  apply List.ext_getElem (by simp)
  intro i h1 h2
  simp only [List.getElem_mapIdx]
  exact h i _ (by simpa using h1)

theorem itemText_congr (f : Flags) (cols : List (Column σ ι ν ε)) (w w' : Nat → UInt16) (row : List GoString)
    (h : ∀ c, c < cols.length → w c = w' c) : itemText f cols w row = itemText f cols w' row := by
  unfold itemText
  congr 1
  apply mapIdx_congr
  intro i x hi
  rw [h i (by simp only [List.length_zip] at hi; omega)]

theorem lineText_congr (f : Flags) (cols : List (Column σ ι ν ε)) (w w' : Nat → Nat → UInt16) (sep : GoString)
    (rows : Nat → List GoString) (g : Nat) (shown : List Nat) (hs : shown.length ≤ g)
    (h : ∀ j c, j < g → c < cols.length → w j c = w' j c) :
    lineText f cols w sep rows g shown = lineText f cols w' sep rows g shown := by
  unfold lineText
  congr 2
  apply mapIdx_congr
  intro i x hi
  exact itemText_congr f cols _ _ _ fun c hc => h i c (by omega) hc

theorem listingH_congr (f : Flags) (cols : List (Column σ ι ν ε)) (w w' : Nat → Nat → UInt16) (sep : GoString)
    (rows : Nat → List GoString) (n g : Nat) (h : ∀ j c, j < g → c < cols.length → w j c = w' j c) :
    listingH f cols w sep rows n g = listingH f cols w' sep rows n g := by
  unfold listingH
  apply List.map_congr_left
  intro i _
  rw [lineText_congr f cols w w' sep rows g _ ?_ h]
  unfold onLineH
  exact Nat.le_trans (List.length_filter_le _ _) (by simp)

theorem listingV_congr (f : Flags) (cols : List (Column σ ι ν ε)) (w w' : Nat → Nat → UInt16) (sep : GoString)
    (rows : Nat → List GoString) (n g : Nat) (h : ∀ j c, j < g → c < cols.length → w j c = w' j c) :
    listingV f cols w sep rows n g = listingV f cols w' sep rows n g := by
  unfold listingV
  apply List.map_congr_left
  intro i _
  rw [lineText_congr f cols w w' sep rows g _ ?_ h]
  unfold onLineV
  exact Nat.le_trans (List.length_filter_le _ _) (by simp)

end GoTable
