import Verif.Spec.Respell
import Verif.Proofs.RespellTables
import Verif.Props.Escape
/-!
# Properties: composed and decomposed spelling

C106: clusters and widths of a text and of the same text with characters spelled out.
-/

namespace GoTable
open Spec

/-! ## Single characters -/

/-- The characters that with the East Asian flag take as many cells spelled out as composed. -/
def Even (r : Nat) : Prop := ¬ InIntervals r narrowComposed ∧ ¬ InIntervals r wideComposed

theorem width_spelledOut_on (f : Flags) (hf : f.eastAsianWidth = true) (r : Nat) (he : Even r) :
    clusterWidth (fun x => runeWidth f x) (spelledOut r) = runeWidth f r := by
  rcases spelledOut_cases r with ⟨h, e⟩ | h | e
  · rw [e, (width_jamo f h).1, (width_jamo f h).2]
  · obtain ⟨a, b⟩ := f
    subst hf
    rcases Bool.or_eq_true _ _ ▸ canonical_wide _ h b with h | h
    · exact beq_iff_eq.mp h
    · rcases Bool.or_eq_true _ _ ▸ h with h | h
      · exact absurd (members_mem (by decide) (List.contains_iff_mem.mp h)) he.1
      · exact absurd (members_mem (by decide) (List.contains_iff_mem.mp h)) he.2
  · rw [e]; exact clusterWidth_one _ r

/-! ## Texts -/

/-- What stands for a character in a respelled text. -/
def For (z : Bool) (ex : Nat → Prop) (r : Nat) (d : List Nat) : Prop :=
  (z = false → r ≠ 0x200D) ∧ (d = [r] ∨ (¬ ex r ∧ d = spelledOut r))

theorem respelled_sub {z : Bool} {ex : Nat → Prop} {rs rs' : List Nat} (h : Respelled ex rs rs')
    (hz : z = false → 0x200D ∉ rs) : Sub (For z ex) rs rs' := by
  induction h with
  | nil => exact .nil
  | keep r rs rs' h ih =>
    refine .cons r [r] rs rs' ⟨fun e he => hz e (he ▸ List.mem_cons_self), .inl rfl⟩ ?_
    exact ih fun e hm => hz e (List.mem_cons_of_mem _ hm)
  | spell r rs rs' hr h ih =>
    refine .cons r _ rs rs' ⟨fun e he => hz e (he ▸ List.mem_cons_self), .inr ⟨hr, rfl⟩⟩ ?_
    exact ih fun e hm => hz e (List.mem_cons_of_mem _ hm)

theorem sub_respelled {z : Bool} {ex : Nat → Prop} {rs rs' : List Nat} (h : Sub (For z ex) rs rs') :
    Respelled ex rs rs' := by
  induction h with
  | nil => exact .nil
  | cons r d rs rs' hd h ih =>
    rcases hd.2 with rfl | ⟨hr, rfl⟩
    · exact .keep r _ _ ih
    · exact .spell r _ _ hr ih

theorem for_stands {z : Bool} {ex : Nat → Prop} (hx : z = true → ∀ r ∈ contextual, ex r) (r : Nat) (d : List Nat)
    (h : For z ex r d) : Stands z r d := by
  rcases h.2 with rfl | ⟨hr, rfl⟩
  · exact stands_self z r h.1
  · refine stands_spelledOut z r ?_
    cases z
    · exact h.1 rfl
    · exact fun hc => hr (hx rfl r hc)

theorem width_respelled {z : Bool} {ex : Nat → Prop} {f : Flags} {s t : GoString}
    (hx : z = true → ∀ r ∈ contextual, ex r) (hz : z = false → 0x200D ∉ runes s)
    (hw : ∀ r, ¬ ex r → clusterWidth (fun x => runeWidth f x) (spelledOut r) = runeWidth f r)
    (h : Respelled ex (runes s) (runes t)) : stringWidth f t = stringWidth f s := by
  rw [stringWidth_eq_sw, stringWidth_eq_sw]
  refine sw_sub (z := z) (for_stands hx) (fun r d hd => ?_) (respelled_sub h hz)
  rcases hd.2 with rfl | ⟨hr, rfl⟩
  · exact clusterWidth_one _ r
  · exact hw r hr

theorem clusters_respelled {z : Bool} {ex : Nat → Prop} {s t : GoString}
    (hx : z = true → ∀ r ∈ contextual, ex r) (hz : z = false → 0x200D ∉ runes s)
    (h : Respelled ex (runes s) (runes t)) :
    (clustersFrom (newGraphemes s)).length = (clustersFrom (newGraphemes t)).length ∧
    ∀ p ∈ (clustersFrom (newGraphemes s)).zip (clustersFrom (newGraphemes t)), Respelled ex p.1 p.2 := by
  rw [clusters_eq_segments, clusters_eq_segments]
  have hb := segments_sub (z := z) (for_stands hx) (respelled_sub h hz)
  generalize segments (runes s) = x at hb
  generalize segments (runes t) = y at hb
  induction hb with
  | nil => exact ⟨rfl, by simp⟩
  | cons h1 _ ih =>
    refine ⟨by simp [ih.1], fun p hp => ?_⟩
    rw [List.zip_cons_cons, List.mem_cons] at hp
    rcases hp with rfl | hp
    · exact sub_respelled h1
    · exact ih.2 p hp

/-- C106. Spelling characters out, all but the nine of `contextual`, changes no cluster: the clusters of the two texts
correspond one to one, each the other spelled out. -/
theorem C106_clusters (s t : GoString) (h : Respelled (· ∈ contextual) (runes s) (runes t)) :
    (clustersFrom (newGraphemes s)).length = (clustersFrom (newGraphemes t)).length ∧
    ∀ p ∈ (clustersFrom (newGraphemes s)).zip (clustersFrom (newGraphemes t)), Respelled (· ∈ contextual) p.1 p.2 :=
  clusters_respelled (z := true) (fun _ _ h => h) (fun h => by cases h) h

/-- C106. Without the East Asian flag it does not change the width either. -/
theorem C106_width (f : Flags) (hf : f.eastAsianWidth = false) (s t : GoString)
    (h : Respelled (· ∈ contextual) (runes s) (runes t)) : stringWidth f t = stringWidth f s :=
  width_respelled (z := true) (fun _ _ h => h) (fun h => by cases h) (fun r _ => width_spelledOut_off f hf r) h

/-- C106. In a text without U+200D the nine may be spelled out, too. -/
theorem C106_no_joiner (s t : GoString) (hj : 0x200D ∉ runes s) (h : Respelled (fun _ => False) (runes s) (runes t)) :
    ((clustersFrom (newGraphemes s)).length = (clustersFrom (newGraphemes t)).length ∧
      ∀ p ∈ (clustersFrom (newGraphemes s)).zip (clustersFrom (newGraphemes t)), Respelled (fun _ => False) p.1 p.2) ∧
    ∀ f : Flags, f.eastAsianWidth = false → stringWidth f t = stringWidth f s :=
  ⟨clusters_respelled (z := false) (fun h => by cases h) (fun _ => hj) h,
   fun f hf => width_respelled (z := false) (fun h => by cases h) (fun _ => hj) (fun r _ => width_spelledOut_off f hf r) h⟩

theorem respelled_all {ex : Nat → Prop} (rs : List Nat) (h : ∀ r ∈ rs, ¬ ex r) :
    Respelled ex rs (rs.flatMap spelledOut) := by
  induction rs with
  | nil => exact .nil
  | cons r rs ih =>
    rw [List.flatMap_cons]
    exact .spell r rs _ (h r List.mem_cons_self) (ih fun x hx => h x (List.mem_cons_of_mem _ hx))

theorem sw_all (f : Flags) (hf : f.eastAsianWidth = false) (rs : List Nat)
    (h : (∀ r ∈ rs, r ∉ contextual) ∨ 0x200D ∉ rs) :
    sw (fun r => runeWidth f r) (rs.flatMap spelledOut) = sw (fun r => runeWidth f r) rs := by
  have hw : ∀ (z : Bool) (ex : Nat → Prop) r d, For z ex r d → clusterWidth (fun x => runeWidth f x) d = runeWidth f r := by
    intro z ex r d hd
    rcases hd.2 with rfl | ⟨hr, rfl⟩
    · exact clusterWidth_one _ r
    · exact width_spelledOut_off f hf r
  rcases h with h | h
  · exact sw_sub (z := true) (for_stands fun _ _ h => h) (hw _ _)
      (respelled_sub (ex := (· ∈ contextual)) (respelled_all rs h) (fun h => by cases h))
  · exact sw_sub (z := false) (for_stands fun h => by cases h) (hw _ _)
      (respelled_sub (ex := fun _ => False) (respelled_all rs fun _ _ h => h) (fun _ => h))

/-- C106. So two texts that spelled out are the same have the same width without the flag, if each contains none of the
nine or no U+200D. -/
theorem C106_same (f : Flags) (hf : f.eastAsianWidth = false) (s t : GoString)
    (hs : (∀ r ∈ runes s, r ∉ contextual) ∨ 0x200D ∉ runes s) (ht : (∀ r ∈ runes t, r ∉ contextual) ∨ 0x200D ∉ runes t)
    (h : (runes s).flatMap spelledOut = (runes t).flatMap spelledOut) : stringWidth f s = stringWidth f t := by
  rw [stringWidth_eq_sw, stringWidth_eq_sw, ← sw_all f hf _ hs, ← sw_all f hf _ ht, h]

/-- C106. With the flag the width stays the same if the characters of `narrowComposed` and `wideComposed` are kept. -/
theorem C106_flag_text (f : Flags) (s t : GoString)
    (h : Respelled (fun r => r ∈ contextual ∨ InIntervals r narrowComposed ∨ InIntervals r wideComposed)
      (runes s) (runes t)) : stringWidth f t = stringWidth f s := by
  refine width_respelled (z := true) (fun _ _ h => .inl h) (fun h => by cases h) (fun r hr => ?_) h
  cases hf : f.eastAsianWidth
  · exact width_spelledOut_off f hf r
  · exact width_spelledOut_on f hf r ⟨fun h => hr (.inr (.inl h)), fun h => hr (.inr (.inr h))⟩

theorem sw_char (f : Flags) (r : Nat) : sw (fun x => runeWidth f x) [r] = runeWidth f r := by
  unfold sw
  rw [show segments [r] = [[r]] from rfl, List.map_cons, clusterWidth_one]
  rfl

theorem sw_spelled (w : Nat → Nat) (r : Nat) : sw w (spelledOut r) = clusterWidth w (spelledOut r) := by
  by_cases hj : r = 0x200D
  · subst hj
    rw [show spelledOut 0x200D = [0x200D] by decide +kernel]
    unfold sw
    rw [show segments [0x200D] = [[0x200D]] from rfl, List.map_cons]
    rfl
  · have hs : Sub (For false fun _ => False) [r] (spelledOut r ++ []) :=
      .cons r (spelledOut r) [] [] ⟨fun _ => hj, .inr ⟨fun h => h, rfl⟩⟩ .nil
    rw [List.append_nil] at hs
    have hb := segments_sub (z := false) (for_stands fun h => by cases h) hs
    rw [show segments [r] = [[r]] from rfl] at hb
    have hfl := segments_flatten (spelledOut r)
    generalize hx : segments (spelledOut r) = x at hb hfl
    cases hb with
    | cons h1 h2 =>
      cases h2
      unfold sw
      rw [hx]
      simp at hfl ⊢
      rw [hfl]

/-- C106. With the flag exactly the characters of these two lists change their width when they are spelled out: those of
`narrowComposed` from one to two cells, those of `wideComposed` from two to one. -/
theorem C106_flag (f : Flags) (hf : f.eastAsianWidth = true) (r : Nat) (s t : GoString) (hs : runes s = [r])
    (ht : runes t = spelledOut r) :
    (InIntervals r narrowComposed → stringWidth f s = 1 ∧ stringWidth f t = 2) ∧
    (InIntervals r wideComposed → stringWidth f s = 2 ∧ stringWidth f t = 1) ∧
    (stringWidth f s ≠ stringWidth f t → InIntervals r narrowComposed ∨ InIntervals r wideComposed) := by
  rw [stringWidth_eq_sw, stringWidth_eq_sw, hs, ht, sw_char, sw_spelled]
  refine ⟨fun h => ?_, fun h => ?_, fun hne => ?_⟩
  · obtain ⟨a, b⟩ := f
    subst hf
    have := narrow_members r (mem_members h) b
    simpa using this
  · obtain ⟨a, b⟩ := f
    subst hf
    have := wide_members r (mem_members h) b
    simpa using this
  · refine Decidable.byContradiction fun h => hne (width_spelledOut_on f hf r ⟨?_, ?_⟩).symm
    · exact fun hn => h (.inl hn)
    · exact fun hn => h (.inr hn)

/-- C106. How many they are: the intervals are in order and apart. -/
theorem C106_number : (narrowComposed.map fun x => x.2 + 1 - x.1).sum = 309 ∧ (wideComposed.map fun x => x.2 + 1 - x.1).sum = 32 ∧
    narrowMembers.Pairwise (· < ·) ∧ wideMembers.Pairwise (· < ·) := by decide +kernel

/-- C106. Between emoji and a joiner the nine do make a difference, with all settings. -/
theorem C106_contextual (f : Flags) (r : Nat) (hr : r ∈ contextual) (s t : GoString)
    (hs : runes s = [0x1F600, r, 0x200D, 0x1F600]) (ht : runes t = [0x1F600] ++ spelledOut r ++ [0x200D, 0x1F600]) :
    Respelled (fun _ => False) (runes s) (runes t) ∧ stringWidth f t < stringWidth f s := by
  constructor
  · rw [hs, ht]
    exact .keep _ _ _ (.spell _ _ _ (fun h => h) (.keep _ _ _ (.keep _ _ _ .nil)))
  · have H : ∀ r ∈ contextual, ∀ a b, sw (fun x => runeWidth ⟨a, b⟩ x) ([0x1F600] ++ spelledOut r ++ [0x200D, 0x1F600]) <
        sw (fun x => runeWidth ⟨a, b⟩ x) [0x1F600, r, 0x200D, 0x1F600] := by decide +kernel
    rw [stringWidth_eq_sw, stringWidth_eq_sw, hs, ht]
    exact H r hr f.eastAsianWidth f.strictEmojiNeutral

/-- C106. The same for the width that the table code measures by, in texts without escape sequences. -/
theorem C106_visual (f : Flags) (s t : GoString) (hf : f.eastAsianWidth = false)
    (hi : ∀ r ∈ runes s ++ runes t, r ≠ 0x1B ∧ r ≠ 0x9B)
    (h : Respelled (· ∈ contextual) (runes s) (runes t)) : visualWidth f t = visualWidth f s := by
  rw [C13_no_introducer f s fun r hr => hi r (List.mem_append_left _ hr),
    C13_no_introducer f t fun r hr => hi r (List.mem_append_right _ hr), C106_width f hf s t h]

/-! ## Examples -/

theorem spelledOut_examples : spelledOut 0xE9 = [0x65, 0x301] ∧ spelledOut 0xD55C = [0x1112, 0x1161, 0x11AB] ∧
    spelledOut 0x1F82 = [0x3B1, 0x313, 0x300, 0x345] ∧ spelledOut 0xAC00 = [0x1100, 0x1161] ∧ spelledOut 0x61 = [0x61] := by
  decide +kernel

/-- "é한x" with its first letter kept and the syllable spelled out. -/
example : Respelled (· ∈ contextual) (runes (lit "\u00e9\ud55cx")) (runes (lit "\u00e9\u1112\u1161\u11abx")) ∧
    stringWidth ⟨false, true⟩ (lit "\u00e9\ud55cx") = 4 := by
  refine ⟨?_, by decide +kernel⟩
  rw [show runes (lit "\u00e9\ud55cx") = [0xE9, 0xD55C, 0x78] by decide +kernel,
    show runes (lit "\u00e9\u1112\u1161\u11abx") = 0xE9 :: (spelledOut 0xD55C ++ [0x78]) by decide +kernel]
  exact .keep _ _ _ (.spell _ _ _ (by decide) (.keep _ _ _ .nil))

/-- Half spelled out either way: the two agree when spelled out altogether. -/
example : (runes (lit "\u1ec7")).flatMap spelledOut = (runes (lit "\u1eb9\u0302")).flatMap spelledOut ∧
    (∀ r ∈ runes (lit "\u1ec7") ++ runes (lit "\u1eb9\u0302"), r ∉ contextual) := by decide +kernel

/-- A vowel sign of the nine in a text without joiner. -/
example : 0x200D ∉ runes (lit "\u0c95\u0cc0") ∧
    Respelled (fun _ => False) (runes (lit "\u0c95\u0cc0")) (runes (lit "\u0c95\u0cbf\u0cd5")) := by
  refine ⟨by decide +kernel, ?_⟩
  rw [show runes (lit "\u0c95\u0cc0") = [0xC95, 0xCC0] by decide +kernel,
    show runes (lit "\u0c95\u0cbf\u0cd5") = 0xC95 :: (spelledOut 0xCC0 ++ []) by decide +kernel]
  exact .keep _ _ _ (.spell _ _ _ (fun h => h) .nil)

/-- With the flag: é is wide composed, ά narrow. -/
example : InIntervals 0xE9 wideComposed ∧ InIntervals 0x3AC narrowComposed ∧
    stringWidth ⟨true, true⟩ (lit "\u00e9") = 2 ∧ stringWidth ⟨true, true⟩ (lit "e\u0301") = 1 ∧
    stringWidth ⟨true, true⟩ (lit "\u03ac") = 1 ∧ stringWidth ⟨true, true⟩ (lit "\u03b1\u0301") = 2 := by
  decide +kernel

/-- With the flag: kept é, spelled out ö. -/
example : Respelled (fun r => r ∈ contextual ∨ InIntervals r narrowComposed ∨ InIntervals r wideComposed)
    (runes (lit "\u00e9\u00f6")) (runes (lit "\u00e9o\u0308")) := by
  rw [show runes (lit "\u00e9\u00f6") = [0xE9, 0xF6] by decide +kernel,
    show runes (lit "\u00e9o\u0308") = 0xE9 :: (spelledOut 0xF6 ++ []) by decide +kernel]
  exact .keep _ _ _ (.spell _ _ _ (by decide +kernel) .nil)

/-- The struck out arrow between emoji: five cells, spelled out three. -/
example : runes (lit "😀\u21ae\u200d😀") = [0x1F600, 0x21AE, 0x200D, 0x1F600] ∧
    runes (lit "😀\u2194\u0338\u200d😀") = [0x1F600] ++ spelledOut 0x21AE ++ [0x200D, 0x1F600] ∧
    stringWidth ⟨false, true⟩ (lit "😀\u21ae\u200d😀") = 5 ∧
    stringWidth ⟨false, true⟩ (lit "😀\u2194\u0338\u200d😀") = 3 := by decide +kernel

end GoTable
