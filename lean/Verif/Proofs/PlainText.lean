import Verif.Props.StringWidth
import Verif.Spec.PlainText
import Verif.Spec.Edges
/-!
# Proofs: plain text
-/

namespace GoTable
open Spec

theorem flatten_take_singletons {α : Type} (l : List α) (j : Nat) :
    ((l.map fun a => [a]).take j).flatten = l.take j := by
  rw [← List.map_take]
  generalize l.take j = m
  induction m with
  | nil => rfl
  | cons a m ih => simpa using ih

theorem breaks_alone {left : List GCB} {c d : GCB} (h : left.getLast? = some d)
    (hd : d = .other ∨ d = .extPict ∨ d = .lv ∨ d = .lvt)
    (hc : c = .other ∨ c = .extPict ∨ c = .lv ∨ c = .lvt) : Breaks left c := by
  have h11 : ¬ GB11 left c := by
    rintro ⟨⟨p, k, e⟩, _⟩
    rw [e, List.getLast?_append] at h
    simp at h
    subst h; simp at hd
  have h12 : ¬ GB12_13 left c := by
    rintro ⟨_, e⟩
    subst e; simp at hc
  refine ⟨?_, Or.inr (Or.inr ?_)⟩
  · rintro ⟨_, rfl⟩; simp at hc
  · simp only [h11, h12, GB6, GB7, GB8, GB9, GB9a, GB9b, h]
    rcases hd with rfl | rfl | rfl | rfl <;> rcases hc with rfl | rfl | rfl | rfl <;> simp

theorem pieces_alone {rs : List Nat} (h : ∀ r ∈ rs, Alone r) : Pieces rs (rs.map fun r => [r]) where
  all := by
    have := flatten_take_singletons rs rs.length
    rw [List.take_of_length_le (by simp), List.take_of_length_le (Nat.le_refl _)] at this
    exact this
  nonempty := by simp
  cuts := by
    intro i h0 hi
    refine ⟨fun _ => ?_, fun _ => ⟨i, flatten_take_singletons rs i⟩⟩
    unfold BoundaryAt
    refine breaks_alone (d := classOf rs[i - 1]) ?_ (h _ (List.getElem_mem _)) (h _ (List.getElem_mem _))
    rw [List.getLast?_eq_getElem?, List.getElem?_eq_getElem (by simp; omega)]
    simp [Nat.min_eq_left (Nat.le_of_lt hi)]

theorem pieceWidth_singleton (f : Flags) (r : Nat) : pieceWidth f [r] = plainWidth f r := by
  unfold pieceWidth
  by_cases h : plainWidth f (r : Int) = 0 <;> simp [h]

/-! ## Ranges -/

/-- No row of the table touches the range. -/
def apart (x : Nat × Nat) (t : List (Nat × Nat)) : Bool := t.all fun e => decide (x.2 < e.1 ∨ e.2 < x.1)

/-- One row of the table covers the range. -/
def covered (x : Nat × Nat) (t : List (Nat × Nat)) : Bool := t.any fun e => decide (e.1 ≤ x.1 ∧ x.2 ≤ e.2)

theorem not_in_of_apart {x : Nat × Nat} {t : List (Nat × Nat)} (h : apart x t = true) {r : Nat} (h1 : x.1 ≤ r)
    (h2 : r ≤ x.2) : ¬ InIntervals r t := by
  rintro ⟨e, he, h3, h4⟩
  have := List.all_eq_true.mp h e he
  simp at this
  omega

theorem in_of_covered {x : Nat × Nat} {t : List (Nat × Nat)} (h : covered x t = true) {r : Nat} (h1 : x.1 ≤ r)
    (h2 : r ≤ x.2) : InIntervals r t := by
  obtain ⟨e, he, h3⟩ := List.any_eq_true.mp h
  simp at h3
  exact ⟨e, he, by omega, by omega⟩

theorem plainWidth_wide {f : Flags} {x : Nat × Nat} (h : (apart x nonprint && apart x combining && apart x narrow &&
    covered x doublewidth && decide (x.2 ≤ 0x10FFFF)) = true) {r : Nat} (h1 : x.1 ≤ r) (h2 : r ≤ x.2) :
    plainWidth f r = 2 := by
  simp only [Bool.and_eq_true, decide_eq_true_eq] at h
  obtain ⟨⟨⟨⟨ha, hb⟩, hc⟩, hd⟩, he⟩ := h
  have hz : ¬ ZeroWidth r := fun h => h.elim (not_in_of_apart ha h1 h2) (not_in_of_apart hb h1 h2)
  have hr : ¬ ((r : Int) < 0 ∨ 0x10FFFF < (r : Int)) := by omega
  rw [plainWidth, if_neg hr]
  simp [hz, not_in_of_apart hc h1 h2, in_of_covered hd h1 h2]

theorem plainWidth_either {f : Flags} {x : Nat × Nat} (h : (apart x nonprint && apart x combining && apart x narrow &&
    apart x doublewidth && covered x ambiguous && decide (x.2 ≤ 0x10FFFF)) = true) {r : Nat} (h1 : x.1 ≤ r)
    (h2 : r ≤ x.2) : plainWidth f r = if f.eastAsianWidth then 2 else 1 := by
  simp only [Bool.and_eq_true, decide_eq_true_eq] at h
  obtain ⟨⟨⟨⟨⟨ha, hb⟩, hc⟩, hd⟩, hg⟩, he⟩ := h
  have hz : ¬ ZeroWidth r := fun h => h.elim (not_in_of_apart ha h1 h2) (not_in_of_apart hb h1 h2)
  have hr : ¬ ((r : Int) < 0 ∨ 0x10FFFF < (r : Int)) := by omega
  rw [plainWidth, if_neg hr]
  cases hf : f.eastAsianWidth <;>
    simp [hz, not_in_of_apart hc h1 h2, not_in_of_apart hd h1 h2, in_of_covered hg h1 h2]

theorem plainWidth_no {f : Flags} {x : Nat × Nat} (h : (covered x nonprint || covered x combining) = true) {r : Nat}
    (h1 : x.1 ≤ r) (h2 : r ≤ x.2) : plainWidth f r = 0 := by
  have hz : ZeroWidth r := by
    rcases (Bool.or_eq_true _ _).mp h with h | h
    · exact Or.inl (in_of_covered h h1 h2)
    · exact Or.inr (in_of_covered h h1 h2)
  rw [plainWidth]
  simp [hz]

theorem wide_width (f : Flags) {r : Nat} (h : InIntervals r wideText) : plainWidth f r = 2 := by
  obtain ⟨x, hx, h1, h2⟩ := h
  have H : ∀ x ∈ wideText, (apart x nonprint && apart x combining && apart x narrow &&
    covered x doublewidth && decide (x.2 ≤ 0x10FFFF)) = true := by decide +kernel
  exact plainWidth_wide (H x hx) h1 h2

theorem either_width (f : Flags) {r : Nat} (h : InIntervals r eitherText) :
    plainWidth f r = if f.eastAsianWidth then 2 else 1 := by
  obtain ⟨x, hx, h1, h2⟩ := h
  have H : ∀ x ∈ eitherText, (apart x nonprint && apart x combining && apart x narrow &&
    apart x doublewidth && covered x ambiguous && decide (x.2 ≤ 0x10FFFF)) = true := by decide +kernel
  exact plainWidth_either (H x hx) h1 h2

theorem no_width (f : Flags) {r : Nat} (h : InIntervals r noText) : plainWidth f r = 0 := by
  obtain ⟨x, hx, h1, h2⟩ := h
  have H : ∀ x ∈ noText, (covered x nonprint || covered x combining) = true := by decide +kernel
  exact plainWidth_no (H x hx) h1 h2

theorem classOf_apart {x : Nat × Nat} (h : apart x (ranges graphemeCodePoints) = true) {r : Nat} (h1 : x.1 ≤ r)
    (h2 : r ≤ x.2) : classOf r = .other := by
  apply classOf_eq_other_of
  apply property_eq_zero_of_not_mem _ graphemeCodePoints_sorted
  intro e he hc
  exact not_in_of_apart h h1 h2 ⟨(e.1, e.2.1), List.mem_map.mpr ⟨e, he, rfl⟩, hc⟩

theorem alone_of_text {r : Nat} (h : InIntervals r asciiText ∨ InIntervals r wideText ∨ InIntervals r eitherText) :
    Alone r := by
  have H : ∀ x ∈ asciiText ++ wideText ++ eitherText, x = (0xAC00, 0xD7A3) ∨
      apart x (ranges graphemeCodePoints) = true := by decide +kernel
  have h' : ∃ x ∈ asciiText ++ wideText ++ eitherText, x.1 ≤ r ∧ r ≤ x.2 := by
    rcases h with ⟨x, hx, h⟩ | ⟨x, hx, h⟩ | ⟨x, hx, h⟩ <;> exact ⟨x, by simp [hx], h⟩
  obtain ⟨x, hx, h1, h2⟩ := h'
  rcases H x hx with rfl | ha
  · have := C45_hangul_classes r
    have e1 : property graphemeCodePoints r = prLV ↔ classOf r = .lv := gprop_eq_iff r .lv
    have e2 : property graphemeCodePoints r = prLVT ↔ classOf r = .lvt := gprop_eq_iff r .lvt
    rw [e1, e2] at this
    by_cases hm : (r - 0xAC00) % 28 = 0
    · exact Or.inr (Or.inr (Or.inl (this.1.mpr ⟨h1, h2, hm⟩)))
    · exact Or.inr (Or.inr (Or.inr (this.2.mpr ⟨h1, h2, hm⟩)))
  · exact Or.inl (classOf_apart ha h1 h2)

end GoTable
