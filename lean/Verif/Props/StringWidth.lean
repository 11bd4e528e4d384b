import Verif.Props.Grapheme
import Verif.Proofs.RuneWidth
import Verif.Spec.Pieces
/-!
# C73: what `StringWidth` is

The width of a text, without reference to the iterator: cut the text at the UAX #29 boundaries, take in each
piece the width of the first code point that has one, and add these up.
-/

namespace GoTable
open Spec

/-- Pieces with the same text and the same cuts are the same. -/
theorem pieces_unique {α : Type} (cs ds : List (List α)) (hc : ∀ c ∈ cs, c ≠ []) (hd : ∀ d ∈ ds, d ≠ [])
    (hflat : cs.flatten = ds.flatten)
    (hcut : ∀ i, 0 < i → i < cs.flatten.length →
      ((∃ j, (cs.take j).flatten.length = i) ↔ ∃ j, (ds.take j).flatten.length = i)) : cs = ds := by
  have first : ∀ (c d : List α) (cs ds : List (List α)), c ≠ [] → (c ++ cs.flatten).length = (d ++ ds.flatten).length →
      (0 < c.length → c.length < (c ++ cs.flatten).length →
        ((∃ j, ((c :: cs).take j).flatten.length = c.length) → ∃ j, ((d :: ds).take j).flatten.length = c.length)) →
      ¬ c.length < d.length := by
    intro c d cs ds hne hlen h hlt
    have h0 : 0 < c.length := List.length_pos_iff.mpr hne
    simp only [List.length_append] at hlen h
    obtain ⟨j, hj⟩ := h h0 (by omega) ⟨1, by simp⟩
    cases j with
    | zero => simp at hj; omega
    | succ j => simp at hj; omega
  induction cs generalizing ds with
  | nil =>
    cases ds with
    | nil => rfl
    | cons d ds =>
      exfalso
      simp only [List.flatten_nil, List.flatten_cons] at hflat
      exact hd d (by simp) (List.append_eq_nil_iff.mp hflat.symm).1
  | cons c cs ih =>
    cases ds with
    | nil =>
      exfalso
      simp only [List.flatten_nil, List.flatten_cons] at hflat
      exact hc c (by simp) (List.append_eq_nil_iff.mp hflat).1
    | cons d ds =>
      simp only [List.flatten_cons] at hflat hcut
      have hlen := congrArg List.length hflat
      have h1 := first c d cs ds (hc c (by simp)) hlen fun a b => (hcut _ a b).mp
      have h2 := first d c ds cs (hd d (by simp)) hlen.symm fun a b => (hcut _ a (by rw [hlen]; exact b)).mpr
      have hcd : c.length = d.length := by omega
      obtain ⟨h3, h4⟩ := List.append_inj hflat hcd
      subst h3
      congr 1
      refine ih ds (fun x hx => hc x (by simp [hx])) (fun x hx => hd x (by simp [hx])) h4 fun i hi0 hi => ?_
      have := hcut (c.length + i) (by omega) (by simp only [List.length_append]; omega)
      have key : ∀ l : List (List α), (∃ j, ((c :: l).take j).flatten.length = c.length + i) ↔
          ∃ j, (l.take j).flatten.length = i := by
        intro l
        constructor
        · rintro ⟨j, hj⟩
          cases j with
          | zero => simp at hj; omega
          | succ j => exact ⟨j, by simp only [List.take_succ_cons, List.flatten_cons, List.length_append] at hj; omega⟩
        · rintro ⟨j, hj⟩
          exact ⟨j + 1, by simp only [List.take_succ_cons, List.flatten_cons, List.length_append]; omega⟩
      rw [key, key] at this
      exact this

theorem take_flatten_iff {α : Type} (cs : List (List α)) (i : Nat) (hi : i ≤ cs.flatten.length) :
    (∃ j, (cs.take j).flatten = cs.flatten.take i) ↔ ∃ j, (cs.take j).flatten.length = i := by
  constructor
  · rintro ⟨j, hj⟩
    exact ⟨j, by rw [hj, List.length_take]; omega⟩
  · rintro ⟨j, hj⟩
    refine ⟨j, ?_⟩
    have hpre : (cs.take j).flatten <+: cs.flatten := by
      conv_rhs => rw [← List.take_append_drop j cs, List.flatten_append]
      exact List.prefix_append _ _
    rw [List.prefix_iff_eq_take.mp hpre, hj]

/-- C73. There is one way to cut a text into such pieces. -/
theorem C73_pieces (s : GoString) : ∃ cs, Pieces (runes s) cs ∧ ∀ ds, Pieces (runes s) ds → ds = cs := by
  refine ⟨clustersFrom (newGraphemes s), ?_, fun ds h => ?_⟩
  · obtain ⟨h1, h2, h3⟩ := C01_boundaries_follow_UAX29 s
    exact ⟨h1, h2, h3⟩
  · obtain ⟨h1, h2, h3⟩ := C01_boundaries_follow_UAX29 s
    refine pieces_unique ds _ h.nonempty h2 (by rw [h.all, h1]) fun i h0 hi => ?_
    rw [← take_flatten_iff ds i (by omega), ← take_flatten_iff _ i (by rw [h1, ← h.all]; omega), h.all, h1]
    rw [h.all] at hi
    rw [h.cuts i h0 hi, h3 i h0 hi]

theorem clusterWidth_eq_pieceWidth (f : Flags) (c : List Nat) :
    clusterWidth (fun r => runeWidth f (r : Int)) c = pieceWidth f c := by
  unfold pieceWidth
  induction c with
  | nil => rfl
  | cons r c ih =>
    rw [clusterWidth, List.map_cons, List.find?_cons, ih, runeWidth_eq_plain]
    by_cases h : plainWidth f (r : Int) = 0
    · simp [h]
    · simp [h, Nat.pos_of_ne_zero h]

/-- C73. `StringWidth` adds up the widths of the pieces. -/
theorem C73_stringWidth (f : Flags) (s : GoString) (cs : List (List Nat)) (h : Pieces (runes s) cs) :
    stringWidth f s = (cs.map (pieceWidth f)).sum := by
  obtain ⟨cs', _, h'⟩ := C73_pieces s
  have h1 := h' cs h
  obtain ⟨a, b, c⟩ := C01_boundaries_follow_UAX29 s
  have h2 := h' (clustersFrom (newGraphemes s)) ⟨a, b, c⟩
  rw [h1, ← h2, stringWidth]
  congr 1
  apply List.map_congr_left
  intro c _
  exact clusterWidth_eq_pieceWidth f c

/-- A flag, CR LF, e with an acute accent, a wide character. -/
example : Pieces (runes (lit "🇩🇪\r\né世"))
      [[0x1F1E9, 0x1F1EA], [0x0D, 0x0A], [0x65, 0x301], [0x4E16]] ∧
    ([[0x1F1E9, 0x1F1EA], [0x0D, 0x0A], [0x65, 0x301], [0x4E16]].map (pieceWidth ⟨false, true⟩)) = [1, 0, 1, 2] := by
  constructor
  · obtain ⟨a, b, c⟩ := C01_boundaries_follow_UAX29 (lit "🇩🇪\r\né世")
    have : clustersFrom (newGraphemes (lit "🇩🇪\r\né世")) =
      [[0x1F1E9, 0x1F1EA], [0x0D, 0x0A], [0x65, 0x301], [0x4E16]] := by decide +kernel
    rw [this] at a b c
    exact ⟨a, b, c⟩
  · decide +kernel

end GoTable
