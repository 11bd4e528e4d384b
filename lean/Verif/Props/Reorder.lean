import Verif.Proofs.Reorder
import Verif.Props.Respell
/-!
# Properties: the order of combining characters, canonical equivalence

C107: clusters and widths of a text whose combining characters are reordered, and of canonically equivalent texts.
-/

namespace GoTable
open Spec

/-- C107. Reordering combining characters moves no cluster boundary: the clusters of the two texts correspond one to one,
each the other reordered. -/
theorem C107_clusters (s t : GoString) (h : Reordered (runes s) (runes t)) :
    (clustersFrom (newGraphemes s)).length = (clustersFrom (newGraphemes t)).length ∧
    ∀ p ∈ (clustersFrom (newGraphemes s)).zip (clustersFrom (newGraphemes t)), Reordered p.1 p.2 := by
  rw [clusters_eq_segments, clusters_eq_segments]
  exact (segments_reordered h).zip

theorem sw_reordered (f : Flags) {rs rs' : List Nat} (h : Reordered rs rs')
    (hw : ∀ r ∈ rs, ¬ InIntervals r doubleMarks) : sw (fun x => runeWidth f x) rs' = sw (fun x => runeWidth f x) rs := by
  have hb := segments_reordered h
  have hm : ∀ c ∈ segments rs, ∀ r ∈ c, ¬ InIntervals r doubleMarks := fun c hc r hr =>
    hw r (by rw [← segments_flatten rs]; exact List.mem_flatten.mpr ⟨c, hc, hr⟩)
  unfold sw
  generalize segments rs = x at hb hm
  generalize segments rs' = y at hb
  induction hb with
  | nil => rfl
  | cons h1 _ ih =>
    rw [List.map_cons, List.map_cons, List.sum_cons, List.sum_cons, ih fun c hc => hm c (List.mem_cons_of_mem _ hc),
      width_reordered f h1 (hm _ List.mem_cons_self)]

/-- C107. It does not change the width, whatever the settings, if none of the eight characters of `doubleMarks` occurs. -/
theorem C107_width (f : Flags) (s t : GoString) (h : Reordered (runes s) (runes t))
    (hw : ∀ r ∈ runes s, ¬ InIntervals r doubleMarks) : stringWidth f t = stringWidth f s := by
  rw [stringWidth_eq_sw, stringWidth_eq_sw, sw_reordered f h hw]

/-- C107. Nor does it if every cluster begins with a character that takes cells and is no combining character. -/
theorem C107_on_letters (f : Flags) (s t : GoString) (h : Reordered (runes s) (runes t))
    (hc : ∀ c ∈ clustersFrom (newGraphemes s), ∃ r c', c = r :: c' ∧ ¬ InIntervals r marks ∧ 0 < runeWidth f r) :
    stringWidth f t = stringWidth f s := by
  rw [clusters_eq_segments] at hc
  rw [stringWidth_eq_sw, stringWidth_eq_sw]
  have hb := segments_reordered h
  unfold sw
  generalize segments (runes s) = x at hb hc
  generalize segments (runes t) = y at hb
  induction hb with
  | nil => rfl
  | cons h1 _ ih =>
    rw [List.map_cons, List.map_cons, List.sum_cons, List.sum_cons, ih fun c h => hc c (List.mem_cons_of_mem _ h)]
    obtain ⟨r, c', rfl, hr, hp⟩ := hc _ List.mem_cons_self
    obtain ⟨d', rfl⟩ := head_reordered h1 hr
    rw [clusterWidth, clusterWidth, if_pos hp, if_pos hp]

/-- C107. At the start of a text each of the eight, exchanged with a vowel point, changes the width from two to one. -/
theorem C107_wide (f : Flags) (r : Nat) (hr : InIntervals r doubleMarks) (s t : GoString) (hs : runes s = [r, 0x5B0])
    (ht : runes t = [0x5B0, r]) :
    Reordered (runes s) (runes t) ∧ stringWidth f s = 2 ∧ stringWidth f t = 1 := by
  have hm : ∀ r ∈ doubleMarks.flatMap fun x => List.range' x.1 (x.2 - x.1 + 1), InIntervals r marks ∧ ∀ a b,
      sw (fun x => runeWidth ⟨a, b⟩ x) [r, 0x5B0] = 2 ∧ sw (fun x => runeWidth ⟨a, b⟩ x) [0x5B0, r] = 1 := by decide +kernel
  obtain ⟨h1, h2⟩ := hm r (mem_members hr)
  rw [stringWidth_eq_sw, stringWidth_eq_sw, hs, ht]
  exact ⟨.swap [] r 0x5B0 [] (.refl _) h1 (by decide +kernel), h2 f.eastAsianWidth f.strictEmojiNeutral⟩

theorem spelled_doubleMarks (r : Nat) (h : ¬ InIntervals r doubleMarks) : ∀ x ∈ spelledOut r, ¬ InIntervals x doubleMarks := by
  rcases spelledOut_cases r with ⟨⟨h1, h2⟩, e⟩ | hm | e
  · rw [e]
    intro x hx
    have : x < 0x302A := by
      unfold jamo at hx
      dsimp only at hx
      split at hx <;> simp at hx <;> omega
    rintro ⟨y, hy, h3, h4⟩
    simp only [doubleMarks, List.mem_cons, List.not_mem_nil, or_false] at hy
    rcases hy with rfl | rfl <;> dsimp only at h3 <;> omega
  · have H : ∀ e ∈ canonical, ∀ x ∈ e.2, ¬ InIntervals x doubleMarks := by decide +kernel
    exact H _ hm
  · rw [e]
    intro x hx
    rw [List.mem_singleton] at hx
    rw [hx]; exact h

/-- C107. Canonically equivalent texts: their full decompositions are the same up to the order of combining characters.
Without the East Asian flag they have the same width if none of the eight occurs in the first text, and each contains none
of the nine characters of C106 or no U+200D. -/
theorem C107_equivalent (f : Flags) (hf : f.eastAsianWidth = false) (s t : GoString)
    (h : Reordered ((runes s).flatMap spelledOut) ((runes t).flatMap spelledOut))
    (hw : ∀ r ∈ runes s, ¬ InIntervals r doubleMarks) (hs : (∀ r ∈ runes s, r ∉ contextual) ∨ 0x200D ∉ runes s)
    (ht : (∀ r ∈ runes t, r ∉ contextual) ∨ 0x200D ∉ runes t) : stringWidth f t = stringWidth f s := by
  rw [stringWidth_eq_sw, stringWidth_eq_sw, ← sw_all f hf _ hs, ← sw_all f hf _ ht]
  refine sw_reordered f h fun x hx => ?_
  obtain ⟨r, hr, hx⟩ := List.mem_flatMap.mp hx
  exact spelled_doubleMarks r (hw r hr) x hx

/-- "ạ̈" with the marks in either order. -/
example : Reordered (runes (lit "a\u0323\u0308")) (runes (lit "a\u0308\u0323")) ∧
    (∀ r ∈ runes (lit "a\u0323\u0308"), ¬ InIntervals r doubleMarks) := by
  refine ⟨?_, by decide +kernel⟩
  rw [show runes (lit "a\u0323\u0308") = [0x61] ++ [0x323, 0x308] by decide +kernel,
    show runes (lit "a\u0308\u0323") = [0x61] ++ [0x308, 0x323] by decide +kernel]
  exact .swap [0x61] 0x323 0x308 [] (.refl _) (by decide +kernel) (by decide +kernel)

/-- A tone mark of the eight on a letter. -/
example : Reordered (runes (lit "\u4e00\u302a\u0323")) (runes (lit "\u4e00\u0323\u302a")) ∧
    clustersFrom (newGraphemes (lit "\u4e00\u302a\u0323")) = [[0x4E00, 0x302A, 0x323]] ∧
    ¬ InIntervals 0x4E00 marks ∧ 0 < runeWidth ⟨false, true⟩ 0x4E00 := by
  refine ⟨?_, by decide +kernel⟩
  rw [show runes (lit "\u4e00\u302a\u0323") = [0x4E00] ++ [0x302A, 0x323] by decide +kernel,
    show runes (lit "\u4e00\u0323\u302a") = [0x4E00] ++ [0x323, 0x302A] by decide +kernel]
  exact .swap [0x4E00] 0x302A 0x323 [] (.refl _) (by decide +kernel) (by decide +kernel)

/-- "ậ" as "â" with a dot and as "ạ" with a circumflex. -/
example : Reordered ((runes (lit "\u00e2\u0323")).flatMap spelledOut) ((runes (lit "\u1ea1\u0302")).flatMap spelledOut) ∧
    (∀ r ∈ runes (lit "\u00e2\u0323"), ¬ InIntervals r doubleMarks) ∧
    (∀ r ∈ runes (lit "\u00e2\u0323") ++ runes (lit "\u1ea1\u0302"), r ∉ contextual) ∧
    stringWidth ⟨false, true⟩ (lit "\u00e2\u0323") = 1 := by
  refine ⟨?_, by decide +kernel⟩
  rw [show (runes (lit "\u00e2\u0323")).flatMap spelledOut = [0x61] ++ [0x302, 0x323] by decide +kernel,
    show (runes (lit "\u1ea1\u0302")).flatMap spelledOut = [0x61] ++ [0x323, 0x302] by decide +kernel]
  exact .swap [0x61] 0x302 0x323 [] (.refl _) (by decide +kernel) (by decide +kernel)

example : InIntervals 0x302A doubleMarks ∧ runes (lit "\u302a\u05b0") = [0x302A, 0x5B0] ∧
    runes (lit "\u05b0\u302a") = [0x5B0, 0x302A] := by decide +kernel

end GoTable
