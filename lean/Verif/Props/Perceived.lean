import Verif.Proofs.Perceived
/-!
# Properties: accents, flags, emoji

C101: how StringWidth counts characters that consist of several code points.
-/

namespace GoTable
open Spec

/-- C101. In a text of characters with marks, flags and joined emoji each of them counts as much as its first code
point that is not of width 0. -/
theorem C101_units (f : Flags) (s : GoString) (us : List (List Nat)) (h : runes s = us.flatten)
    (hu : ∀ u ∈ us, Perceived u) :
    stringWidth f s = (us.map fun u => ((u.map fun r : Nat => runeWidth f r).find? (· ≠ 0)).getD 0).sum := by
  have hp := pieces_perceived hu
  rw [← h] at hp
  rw [C73_stringWidth f s us hp]
  congr 1
  apply List.map_congr_left
  intro u _
  simp only [pieceWidth, runeWidth_eq_plain]

/-- An e with an accent, a woman astronaut with a skin tone, two flags, a red heart, a keycap. -/
example : runes (lit "e\u0301👩🏽‍🚀🇩🇪🇫🇷❤️5️⃣") =
      [[0x65, 0x301], [0x1F469, 0x1F3FD, 0x200D, 0x1F680], [0x1F1E9, 0x1F1EA], [0x1F1EB, 0x1F1F7], [0x2764, 0xFE0F],
        [0x35, 0xFE0F, 0x20E3]].flatten ∧
    (∀ u ∈ [[0x65, 0x301], [0x1F469, 0x1F3FD, 0x200D, 0x1F680], [0x1F1E9, 0x1F1EA], [0x1F1EB, 0x1F1F7], [0x2764, 0xFE0F],
        [0x35, 0xFE0F, 0x20E3]], Perceived u) ∧
    stringWidth ⟨false, true⟩ (lit "e\u0301👩🏽‍🚀🇩🇪🇫🇷❤️5️⃣") = 7 := by
  refine ⟨by decide +kernel, ?_, by decide +kernel⟩
  have h1 : Perceived [0x65, 0x301] := .marked _ _ (by decide +kernel) (by decide +kernel)
  have h2 : Perceived [0x1F469, 0x1F3FD, 0x200D, 0x1F680] :=
    .emoji _ (.join [0x1F469, 0x1F3FD] 0x1F680 [] (.one _ _ (by decide +kernel) (by decide +kernel)) (by decide +kernel)
      (by simp))
  have h3 : Perceived [0x1F1E9, 0x1F1EA] := .flag _ _ _ (by decide +kernel) (by decide +kernel) (by simp)
  have h4 : Perceived [0x1F1EB, 0x1F1F7] := .flag _ _ _ (by decide +kernel) (by decide +kernel) (by simp)
  have h5 : Perceived [0x2764, 0xFE0F] := .marked _ _ (by decide +kernel) (by decide +kernel)
  have h6 : Perceived [0x35, 0xFE0F, 0x20E3] := .marked _ _ (by decide +kernel) (by decide +kernel)
  simp only [List.mem_cons, List.not_mem_nil, or_false]
  rintro u (rfl | rfl | rfl | rfl | rfl | rfl) <;> assumption

/-- C101. If none of them starts with a code point of width 0, the rest of each has no influence. -/
theorem C101_first (f : Flags) (s : GoString) (us : List (Nat × List Nat))
    (h : runes s = (us.map fun u => u.1 :: u.2).flatten) (hu : ∀ u ∈ us, Perceived (u.1 :: u.2) ∧ runeWidth f u.1 ≠ 0) :
    stringWidth f s = (us.map fun u => runeWidth f u.1).sum := by
  rw [C101_units f s _ h fun u hu' => by obtain ⟨v, hv, rfl⟩ := List.mem_map.mp hu'; exact (hu v hv).1, List.map_map]
  congr 1
  apply List.map_congr_left
  intro u hu'
  simp [(hu u hu').2]

theorem pict_width (f : Flags) (r : Nat) (h : classOf r = .extPict) : 1 ≤ runeWidth f r ∧ runeWidth f r ≤ 2 := by
  obtain ⟨e, he, h1, h2⟩ := (classOf_code_iff r .extPict 15 (by omega) rfl).mp h
  have H : ∀ e ∈ graphemeCodePoints.filter (fun e => e.2.2 == 15),
      (apart (e.1, e.2.1) nonprint && apart (e.1, e.2.1) combining && decide (e.2.1 ≤ 0x10FFFF)) = true := by
    decide +kernel
  have := H e he
  simp only [Bool.and_eq_true, decide_eq_true_eq] at this
  obtain ⟨⟨ha, hb⟩, hc⟩ := this
  have hz : ¬ ZeroWidth r := fun h => h.elim (not_in_of_apart ha h1 h2) (not_in_of_apart hb h1 h2)
  have hr : ¬ ((r : Int) < 0 ∨ 0x10FFFF < (r : Int)) := by omega
  rw [runeWidth_eq_plain, plainWidth, if_neg hr]
  simp only [Int.toNat_natCast, hz, if_false]
  repeat' split
  all_goals omega

/-- C101. Joined emoji count as much as the first of them, 1 or 2. -/
theorem C101_emoji (f : Flags) (s : GoString) (h : JoinedEmoji (runes s)) :
    ∃ r, (runes s).head? = some r ∧ stringWidth f s = runeWidth f r ∧ 1 ≤ runeWidth f r ∧ runeWidth f r ≤ 2 := by
  have hh : ∀ {u : List Nat}, JoinedEmoji u → ∃ r rest, u = r :: rest ∧ classOf r = .extPict := by
    intro u hu
    induction hu with
    | one r marks hr _ => exact ⟨r, marks, rfl, hr⟩
    | join u r marks _ _ _ ih =>
      obtain ⟨c, rest, e, h⟩ := ih
      exact ⟨c, rest ++ 0x200D :: r :: marks, by rw [e]; rfl, h⟩
  obtain ⟨r, rest, e, hr⟩ := hh h
  have hw := pict_width f r hr
  refine ⟨r, by rw [e]; rfl, ?_, hw⟩
  rw [C101_first f s [(r, rest)] (by simpa using e) (by simpa using ⟨.emoji _ (e ▸ h), by omega⟩)]
  simp

/-- A family of four counts 2. -/
example : JoinedEmoji (runes (lit "👨‍👩‍👧‍👦")) ∧ stringWidth ⟨true, true⟩ (lit "👨‍👩‍👧‍👦") = 2 := by
  refine ⟨?_, by decide +kernel⟩
  have e : runes (lit "👨‍👩‍👧‍👦") = (([0x1F468] ++ [0x200D, 0x1F469]) ++ [0x200D, 0x1F467]) ++ [0x200D, 0x1F466] := by
    decide +kernel
  rw [e]
  have hn : ∀ m ∈ ([] : List Nat), classOf m = .extend := by simp
  exact .join _ _ [] (.join _ _ [] (.join _ _ [] (.one _ [] (by decide +kernel) hn) (by decide +kernel) hn)
    (by decide +kernel) hn) (by decide +kernel) hn

theorem classOf_regional {r : Nat} (h : Regional r) : classOf r = .ri :=
  (classOf_code_iff r .ri 7 (by omega) rfl).mpr ⟨(0x1F1E6, 0x1F1FF, 7), by decide +kernel, h.1, h.2⟩

theorem width_regional (f : Flags) {r : Nat} (h : Regional r) : runeWidth f r = 1 := by
  have H : (apart (0x1F1E6, 0x1F1FF) nonprint && apart (0x1F1E6, 0x1F1FF) combining &&
      apart (0x1F1E6, 0x1F1FF) doublewidth && apart (0x1F1E6, 0x1F1FF) ambiguous &&
      apart (0x1F1E6, 0x1F1FF) emoji) = true := by decide +kernel
  simp only [Bool.and_eq_true] at H
  obtain ⟨⟨⟨⟨ha, hb⟩, hc⟩, hd⟩, he⟩ := H
  have hz : ¬ ZeroWidth r := fun h' => h'.elim (not_in_of_apart ha h.1 h.2) (not_in_of_apart hb h.1 h.2)
  have h1 := not_in_of_apart hc h.1 h.2
  have h2 := not_in_of_apart hd h.1 h.2
  have h3 := not_in_of_apart he h.1 h.2
  unfold Regional at h
  have hr : ¬ ((r : Int) < 0 ∨ 0x10FFFF < (r : Int)) := by omega
  rw [runeWidth_eq_plain, plainWidth, if_neg hr]
  simp [hz, h1, h2, h3]

/-- C101. A row of flags counts one cell for each, under all settings. -/
theorem C101_flags (f : Flags) (s : GoString) (fs : List (Nat × Nat)) (h : runes s = (fs.map fun x => [x.1, x.2]).flatten)
    (hr : ∀ x ∈ fs, Regional x.1 ∧ Regional x.2) : stringWidth f s = fs.length := by
  rw [C101_first f s (fs.map fun x => (x.1, [x.2])) (by rw [h, List.map_map]; rfl)]
  · clear h
    induction fs with
    | nil => rfl
    | cons x fs ih =>
      rw [List.map_cons, List.map_cons, List.sum_cons, ih fun y hy => hr y (List.mem_cons_of_mem _ hy),
        width_regional f (hr x List.mem_cons_self).1, List.length_cons, Nat.add_comm]
  · intro u hu
    obtain ⟨x, hx, rfl⟩ := List.mem_map.mp hu
    obtain ⟨h1, h2⟩ := hr x hx
    exact ⟨.flag _ _ [] (classOf_regional h1) (classOf_regional h2) (by simp), by rw [width_regional f h1]; omega⟩

/-- Three flags in a row. -/
example : runes (lit "🇩🇪🇫🇷🇮🇹") =
      ([(0x1F1E9, 0x1F1EA), (0x1F1EB, 0x1F1F7), (0x1F1EE, 0x1F1F9)].map fun x => [x.1, x.2]).flatten ∧
    stringWidth ⟨true, false⟩ (lit "🇩🇪🇫🇷🇮🇹") = 3 := by decide +kernel

/-- C101. So a flag, an emoji with an emoji variation selector and a keycap count 1, where the segmentation package of
the repository says 2. -/
theorem C101_narrower_than_cluster : ∀ s ∈ [lit "🇩🇪", lit "❤️", lit "5️⃣"],
    stringWidth ⟨false, true⟩ s = 1 ∧ (stepString s (-1)).boundaries >>> ShiftWidth = 2 := by decide +kernel

end GoTable
