import Verif.Spec.Walk
import Verif.Props.Perceived
import Verif.Props.TwoTables
/-!
# Properties: stepping through a text

C105: the widths that `StepString` returns on the way through a text, added up, against `StringWidth`.
-/

namespace GoTable
open Spec

theorem clusters_nil : clustersFrom (newGraphemes []) = [] := by decide +kernel

theorem walk_clusters {s r : GoString} {st : Int} {l : List (GoString × Nat)} (h : Walk r st l) (hh : Handed s r st) :
    (l.map (·.1)).flatten = r ∧ (l.map fun x => runes x.1) = clustersFrom (newGraphemes r) ∧
    ∀ x ∈ l, x.2 = clusterCells (runes x.1) := by
  induction h with
  | done st => exact ⟨rfl, clusters_nil.symm, by simp⟩
  | step r st l hr _ ih =>
    obtain ⟨h1, h2, h3⟩ := ih (.step hh hr)
    have hs := stepString_split r st hr
    refine ⟨by rw [List.map_cons, List.flatten_cons, h1]; exact hs.1, ?_, ?_⟩
    · have he : stepString r st = stepString r (-1) := (C03_stepString_resumable s r st hh hr).2.2
      obtain ⟨_, j, hj1, hj2⟩ := C03_stepString_cluster r r (-1) .start hr
      have hj0 : clustersFrom (newGraphemes r) ≠ [] := by
        intro e
        have := (C01_boundaries_follow_UAX29 r).1
        rw [e, runes_of_ne_nil hr] at this
        simp at this
      have hj : j = 0 := by
        have := congrArg List.length hj2
        rw [List.length_drop] at this
        have := List.length_pos_iff.mpr hj0
        omega
      subst hj
      rw [List.map_cons, h2, he]
      have hcl : clustersFrom (newGraphemes r) = runes (stepString r (-1)).cluster ::
          (clustersFrom (newGraphemes r)).tail := by
        cases hc : clustersFrom (newGraphemes r) with
        | nil => exact absurd hc hj0
        | cons a t => rw [hc] at hj1; simp at hj1; rw [hj1]; rfl
      rw [hcl]
      congr 1
      rw [← he]
      by_cases hn : (stepString r st).rest = []
      · rw [hn]
        have hfl := (C01_boundaries_follow_UAX29 r).1
        have hc : (stepString r (-1)).cluster = r := by
          rw [← he]; have := hs.1; rw [hn, List.append_nil] at this; exact this
        rw [hcl, List.flatten_cons, hc] at hfl
        have h0 : (clustersFrom (newGraphemes r)).tail.flatten = [] := by
          have := congrArg List.length hfl
          rw [List.length_append] at this
          exact List.length_eq_zero_iff.mp (by omega)
        have hne := (C01_boundaries_follow_UAX29 r).2.1
        cases ht : (clustersFrom (newGraphemes r)).tail with
        | nil => exact clusters_nil
        | cons a t =>
          rw [ht, List.flatten_cons] at h0
          exact absurd (List.append_eq_nil_iff.mp h0).1 (hne a (by rw [hcl, ht]; simp))
      · have hst := Handed.step (Handed.start (s := r)) hr
        rw [← he] at hst
        obtain ⟨⟨k, hk⟩, ⟨_, b, hb, hb2, hb3, _⟩, _⟩ := C03_stepString_resumable r _ _ hst hn
        rw [hk]
        -- both are what is left of the clusters after the first; compare the texts
        have hfl := (C01_boundaries_follow_UAX29 (stepString r st).rest).1
        have hfr := (C01_boundaries_follow_UAX29 r).1
        have hc2 : runes r = runes (stepString r st).cluster ++ runes (stepString r st).rest := by
          obtain ⟨he', _⟩ := (handed_entry r r (-1) .start).2 hr
          have hspec := stepString_spec r hr (-1) _ he'
          dsimp only at hspec
          rw [← he] at hspec
          rw [hspec.1, hspec.2.1, runes_take_off, runes_drop_off, List.take_append_drop]
        rw [hk] at hfl
        have hte : (clustersFrom (newGraphemes r)).tail.flatten = runes (stepString r st).rest := by
          rw [hc2, hcl, List.flatten_cons, ← he] at hfr
          exact List.append_cancel_left hfr
        have hk1 : ((clustersFrom (newGraphemes r)).drop k).flatten.length =
            ((clustersFrom (newGraphemes r)).drop 1).flatten.length := by rw [hfl, List.drop_one, hte]
        have hne := (C01_boundaries_follow_UAX29 r).2.1
        have key : ∀ (L : List (List Nat)), (∀ c ∈ L, c ≠ []) → ∀ a b, a ≤ b →
            (L.drop a).flatten.length = (L.drop b).flatten.length → L.drop a = L.drop b := by
          intro L hL a b hab hlen
          have e : L.drop b = (L.drop a).drop (b - a) := by rw [List.drop_drop]; congr 1; omega
          have e2 : ((L.drop a).take (b - a)).flatten ++ ((L.drop a).drop (b - a)).flatten = (L.drop a).flatten := by
            rw [← List.flatten_append, List.take_append_drop]
          have h0 : ((L.drop a).take (b - a)).flatten.length = 0 := by
            have := congrArg List.length e2
            rw [List.length_append, ← e] at this
            omega
          have hnil : (L.drop a).take (b - a) = [] := by
            cases hx : (L.drop a).take (b - a) with
            | nil => rfl
            | cons c t =>
              rw [hx, List.flatten_cons, List.length_append] at h0
              exact absurd (List.length_eq_zero_iff.mp (by omega)) (hL c (List.mem_of_mem_drop (i := a)
                (List.mem_of_mem_take (i := b - a) (by rw [hx]; simp))))
          rw [e]
          have := List.take_append_drop (b - a) (L.drop a)
          rw [hnil, List.nil_append] at this
          exact this.symm
        rw [← List.drop_one]
        rcases Nat.le_total k 1 with h | h
        · exact key _ hne k 1 h hk1
        · exact (key _ hne 1 k h hk1.symm).symm
    · intro x hx
      rcases List.mem_cons.mp hx with rfl | hx
      · exact C46_stepString_width s r st hh hr
      · exact h3 x hx

/-- C105. There is one way through a text. Its clusters make up the text and are its pieces, and each width is that of
the cluster. -/
theorem C105_walk (s : GoString) : ∃ l, Walk s (-1) l ∧ (∀ m, Walk s (-1) m → m = l) ∧
    (l.map (·.1)).flatten = s ∧ Pieces (runes s) (l.map fun x => runes x.1) ∧
    ∀ x ∈ l, x.2 = clusterCells (runes x.1) := by
  have hex : ∀ n (s : GoString) st, s.length ≤ n → ∃ l, Walk s st l := by
    intro n
    induction n with
    | zero => intro s st h; rw [List.length_eq_zero_iff.mp (Nat.le_zero.mp h)]; exact ⟨[], .done st⟩
    | succ n ih =>
      intro s st h
      by_cases hs : s = []
      · rw [hs]; exact ⟨[], .done st⟩
      · have := stepString_rest_lt s st hs
        obtain ⟨l, hl⟩ := ih (stepString s st).rest (stepString s st).newState (by omega)
        exact ⟨_, .step s st l hs hl⟩
  have huniq : ∀ {s : GoString} {st : Int} {l m : List (GoString × Nat)}, Walk s st l → Walk s st m → m = l := by
    intro s st l m hl
    induction hl generalizing m with
    | done st => intro hm; cases hm with
      | done => rfl
      | step _ _ _ hs => exact absurd rfl hs
    | step s st l hs _ ih => intro hm; cases hm with
      | done => exact absurd rfl hs
      | step _ _ l' _ h' => rw [ih h']
  obtain ⟨l, hl⟩ := hex s.length s (-1) (Nat.le_refl _)
  obtain ⟨h1, h2, h3⟩ := walk_clusters hl .start
  refine ⟨l, hl, fun m hm => huniq hl hm, h1, ?_, h3⟩
  obtain ⟨a, b, c⟩ := C01_boundaries_follow_UAX29 s
  rw [h2]
  exact ⟨a, b, c⟩

theorem walk_sum {s : GoString} {l : List (GoString × Nat)} (h : Walk s (-1) l) {cs : List (List Nat)}
    (hp : Pieces (runes s) cs) : (l.map (·.2)).sum = (cs.map clusterCells).sum := by
  obtain ⟨l', _, hu, _, hp', hw⟩ := C105_walk s
  obtain ⟨ds, _, hds⟩ := C73_pieces s
  obtain rfl := hu l h
  rw [hds cs hp, ← hds _ hp', List.map_map]
  congr 1
  exact List.map_congr_left hw

/-- C105. Added up, the widths on the way through a text are those of its characters with marks, flags and joined
emoji. -/
theorem C105_units (s : GoString) (l : List (GoString × Nat)) (hl : Walk s (-1) l) (us : List (List Nat))
    (h : runes s = us.flatten) (hu : ∀ u ∈ us, Perceived u) : (l.map (·.2)).sum = (us.map clusterCells).sum := by
  have hp := pieces_perceived hu
  rw [← h] at hp
  exact walk_sum hl hp

theorem alone_takes {r : Nat} (h : Alone r) : ¬ TakesNone r := by
  unfold Alone at h
  unfold TakesNone
  rcases h with h | h | h | h <;> rw [h] <;> simp

theorem mono_excess (f : Flags) (hf : f.eastAsianWidth = false) (r : Nat) (hr : r ≤ 0x10FFFF) (hn : ¬ TakesNone r) :
    (monoWidth r : Int) = runeWidth f r + excess r := by
  have hc := differ_check r
  dsimp only at hc
  rw [← widthW_eq f hf r hr, ← widthU_eq, usRuneWidth_mono, stepAt_class] at hc
  simp only [code_takesNone] at hc
  rw [if_neg hn] at hc
  have hd : stepAt 0 (rowSteps differRows) r = property differRows r := by
    rw [stepAt_rows _ differRows_sorted, property_eq_rowValue _ differRows_sorted]
  rw [hd] at hc
  unfold excess
  cases hf' : differ.find? fun e => decide (e.1 ≤ r ∧ r ≤ e.2.1) with
  | none =>
    have hp : property differRows r = 0 := by
      apply property_eq_zero_of_not_mem differRows differRows_sorted
      intro e he
      obtain ⟨x, hx, rfl⟩ := List.mem_map.mp he
      have := List.find?_eq_none.mp hf' x hx
      simpa using this
    rw [hp] at hc
    dsimp only
    omega
  | some e =>
    have he := List.mem_of_find?_eq_some hf'
    have h12 := List.find?_some hf'
    simp only [decide_eq_true_eq] at h12
    have hp : property differRows r = 1 + 8 * e.2.2.1 + e.2.2.2 :=
      property_eq_of_mem differRows differRows_sorted (e.1, e.2.1, 1 + 8 * e.2.2.1 + e.2.2.2)
        (List.mem_map.mpr ⟨e, he, rfl⟩) r h12.1 h12.2
    have h8 : ∀ e ∈ differ, e.2.2.2 < 8 := by decide
    have := h8 e he
    rw [hp] at hc
    dsimp only
    omega

theorem extend_mono {r : Nat} (h : classOf r = .extend) : monoWidth r = 0 := by
  rw [← usRuneWidth_mono, usRuneWidth_eq, if_pos (by simp [h])]

theorem marks_mono {marks : List Nat} (h : ∀ m ∈ marks, classOf m = .extend) : (marks.map monoWidth).sum = 0 := by
  induction marks with
  | nil => rfl
  | cons m ms ih =>
    rw [List.map_cons, List.sum_cons, extend_mono (h m List.mem_cons_self),
      ih fun x hx => h x (List.mem_cons_of_mem _ hx)]

theorem cells_marked (r : Nat) (marks : List Nat) (ha : Alone r) (hm : ∀ m ∈ marks, classOf m = .extend ∧ m ≠ 0xFE0F)
    (hp : classOf r = .extPict → marks = []) : clusterCells (r :: marks) = monoWidth r := by
  cases marks with
  | nil => rfl
  | cons m ms =>
    have h1 : classOf r ≠ .extPict := fun e => by cases hp e
    have h2 : ¬ (classOf r = .ri ∨ classOf r = .l) := by
      unfold Alone at ha
      rcases ha with h | h | h | h <;> simp [h]
    have h3 : 0xFE0F ∉ m :: ms := fun h => (hm _ h).2 rfl
    rw [clusterCells, if_neg h1, if_neg h2]
    · dsimp only
      rw [if_neg h3, marks_mono fun x hx => (hm x hx).1, Nat.add_zero]
    · simp

/-- C105. In a text of characters with or without accents the sum differs from `StringWidth` by what the characters of
`differ` among them are wider or narrower. -/
theorem C105_accents (f : Flags) (hf : f.eastAsianWidth = false) (s : GoString) (l : List (GoString × Nat))
    (hl : Walk s (-1) l) (us : List (Nat × List Nat)) (h : runes s = (us.map fun u => u.1 :: u.2).flatten)
    (hu : ∀ u ∈ us, Alone u.1 ∧ (∀ m ∈ u.2, classOf m = .extend ∧ m ≠ 0xFE0F) ∧
      (u.2 ≠ [] → classOf u.1 ≠ .extPict ∧ runeWidth f u.1 ≠ 0)) :
    (((l.map (·.2)).sum : Nat) : Int) = stringWidth f s + (us.map fun u => excess u.1).sum := by
  have hper : ∀ u ∈ us.map fun u => u.1 :: u.2, Perceived u := by
    intro u hu'
    obtain ⟨v, hv, rfl⟩ := List.mem_map.mp hu'
    obtain ⟨h1, h2, _⟩ := hu v hv
    exact .marked _ _ h1 fun m hm => .inl (h2 m hm).1
  have hr : ∀ u ∈ us, u.1 ≤ 0x10FFFF := by
    intro u hu'
    apply mem_runes_le s
    rw [h]
    exact List.mem_flatten.mpr ⟨_, List.mem_map.mpr ⟨u, hu', rfl⟩, List.mem_cons_self⟩
  rw [C105_units s l hl _ h hper, C101_units f s _ h hper, List.map_map, List.map_map]
  clear h hper hl
  induction us with
  | nil => rfl
  | cons u us ih =>
    have ih := ih (fun x hx => hu x (List.mem_cons_of_mem _ hx)) fun x hx => hr x (List.mem_cons_of_mem _ hx)
    obtain ⟨h1, h2, h3⟩ := hu u List.mem_cons_self
    have hc := cells_marked u.1 u.2 h1 h2 fun e => by
      by_cases hn : u.2 = []
      · exact hn
      · exact absurd e (h3 hn).1
    have hm := mono_excess f hf u.1 (hr u List.mem_cons_self) (alone_takes h1)
    have hw : (((u.1 :: u.2).map fun r : Nat => runeWidth f r).find? (· ≠ 0)).getD 0 = runeWidth f u.1 := by
      by_cases hn : u.2 = []
      · rw [hn]
        by_cases h0 : runeWidth f u.1 = 0 <;> simp [h0]
      · simp [(h3 hn).2]
    simp only [List.map_cons, List.sum_cons, Function.comp] at ih ⊢
    rw [List.map_cons] at hw
    rw [hc, hw]
    omega

/-- An accent, a two-em dash, a character of Unicode 14. -/
example : runes (lit "é⸺🫠") = ([(0x65, [0x301]), (0x2E3A, []), (0x1FAE0, [])].map fun u => u.1 :: u.2).flatten ∧
    (∀ u ∈ [((0x65 : Nat), [0x301]), (0x2E3A, []), (0x1FAE0, [])], Alone u.1 ∧
      (∀ m ∈ u.2, classOf m = .extend ∧ m ≠ 0xFE0F) ∧
      (u.2 ≠ [] → classOf u.1 ≠ .extPict ∧ runeWidth ⟨false, true⟩ u.1 ≠ 0)) ∧
    stringWidth ⟨false, true⟩ (lit "é⸺🫠") = 3 ∧
    ([(0x65, [0x301]), (0x2E3A, []), (0x1FAE0, [])].map fun u : Nat × List Nat => excess u.1).sum = 3 := by
  decide +kernel

/-- C105. So plain text without characters of `differ` is as wide by one as by the other. -/
theorem C105_plain (f : Flags) (hf : f.eastAsianWidth = false) (s : GoString) (l : List (GoString × Nat))
    (hl : Walk s (-1) l) (h : ∀ r ∈ runes s, Alone r ∧ ∀ e ∈ differ, ¬ (e.1 ≤ r ∧ r ≤ e.2.1)) :
    (l.map (·.2)).sum = stringWidth f s := by
  have he : runes s = (((runes s).map fun r => (r, ([] : List Nat))).map fun u => u.1 :: u.2).flatten := by
    rw [List.map_map]
    exact ((pieces_alone fun r hr => (h r hr).1).all).symm
  have := C105_accents f hf s l hl _ he fun u hu => by
    obtain ⟨r, hr, rfl⟩ := List.mem_map.mp hu
    exact ⟨(h r hr).1, by simp, by simp⟩
  have h0 : (((runes s).map fun r => (r, ([] : List Nat))).map fun u => excess u.1).sum = 0 := by
    rw [List.map_map]
    have : ∀ rs : List Nat, (∀ r ∈ rs, ∀ e ∈ differ, ¬ (e.1 ≤ r ∧ r ≤ e.2.1)) →
        (rs.map ((fun u : Nat × List Nat => excess u.1) ∘ fun r => (r, []))).sum = 0 := by
      intro rs hrs
      induction rs with
      | nil => rfl
      | cons r rs ih =>
        rw [List.map_cons, List.sum_cons, ih fun x hx => hrs x (List.mem_cons_of_mem _ hx)]
        have : excess r = 0 := by
          unfold excess
          rw [List.find?_eq_none.mpr fun e he => by simpa using hrs r List.mem_cons_self e he]
        simp [this]
    exact this _ fun r hr => (h r hr).2
  rw [h0] at this
  omega

/-- Latin, ideographs and an emoji. -/
example : (∀ r ∈ runes (lit "Zoë 漢字 😀"), Alone r ∧ ∀ e ∈ differ, ¬ (e.1 ≤ r ∧ r ≤ e.2.1)) ∧
    stringWidth ⟨false, true⟩ (lit "Zoë 漢字 😀") = 11 := by decide +kernel

/-- C105. A row of flags is twice as wide as for `StringWidth`. -/
theorem C105_flags (f : Flags) (s : GoString) (l : List (GoString × Nat)) (hl : Walk s (-1) l) (fs : List (Nat × Nat))
    (h : runes s = (fs.map fun x => [x.1, x.2]).flatten) (hr : ∀ x ∈ fs, Regional x.1 ∧ Regional x.2) :
    (l.map (·.2)).sum = 2 * stringWidth f s := by
  rw [C101_flags f s fs h hr, C105_units s l hl _ h fun u hu => by
    obtain ⟨x, hx, rfl⟩ := List.mem_map.mp hu
    exact .flag _ _ [] (classOf_regional (hr x hx).1) (classOf_regional (hr x hx).2) (by simp)]
  clear h hl
  induction fs with
  | nil => rfl
  | cons x fs ih =>
    have h1 := classOf_regional (hr x List.mem_cons_self).1
    have : clusterCells [x.1, x.2] = 2 := by
      rw [clusterCells, if_neg (by simp [h1]), if_pos (.inl h1)]
      simp
    rw [List.map_cons, List.map_cons, List.sum_cons, ih fun y hy => hr y (List.mem_cons_of_mem _ hy), this,
      List.length_cons]
    omega

/-- C105. Joined emoji, or an emoji with a skin tone or selector, take two cells there, unless a text selector is last;
for `StringWidth` they take as many as the first of them. -/
theorem C105_emoji (s : GoString) (l : List (GoString × Nat)) (hl : Walk s (-1) l) (h : JoinedEmoji (runes s))
    (h2 : 1 < (runes s).length) : (l.map (·.2)).sum = if (runes s).getLast? = some 0xFE0E then 1 else 2 := by
  rw [C105_units s l hl [runes s] (by simp) (by simpa using .emoji _ h)]
  have hh : ∀ {u : List Nat}, JoinedEmoji u → ∃ r rest, u = r :: rest ∧ classOf r = .extPict := by
    intro u hu
    induction hu with
    | one r marks hr _ => exact ⟨r, marks, rfl, hr⟩
    | join u r marks _ _ _ ih =>
      obtain ⟨c, rest, e, h⟩ := ih
      exact ⟨c, rest ++ 0x200D :: r :: marks, by rw [e]; rfl, h⟩
  obtain ⟨r, rest, e, hr⟩ := hh h
  rw [e] at h2 ⊢
  cases rest with
  | nil => simp at h2
  | cons m ms =>
    rw [List.map_singleton, List.sum_singleton, clusterCells, if_pos hr, List.getLast?_cons_cons]
    simp

theorem walk_cons {s r c : GoString} {st : Int} {w : Nat} {l : List (GoString × Nat)} (hs : s ≠ [])
    (hc : (stepString s st).cluster = c) (hw : (stepString s st).boundaries >>> ShiftWidth = w)
    (hr : (stepString s st).rest = r) (h : Walk r (stepString s st).newState l) : Walk s st ((c, w) :: l) := by
  subst hc hw hr
  exact .step s st l hs h

/-- The way through two flags and a heart with a selector; `StringWidth` says three. -/
example : Walk (lit "🇩🇪🇫🇷❤️") (-1) [(lit "🇩🇪", 2), (lit "🇫🇷", 2), (lit "❤️", 2)] ∧
    stringWidth ⟨false, true⟩ (lit "🇩🇪🇫🇷❤️") = 3 := by
  refine ⟨?_, by decide +kernel⟩
  refine walk_cons (r := lit "🇫🇷❤️") (by decide +kernel) (by decide +kernel) (by decide +kernel) (by decide +kernel) ?_
  refine walk_cons (r := lit "❤️") (by decide +kernel) (by decide +kernel) (by decide +kernel) (by decide +kernel) ?_
  exact walk_cons (r := []) (by decide +kernel) (by decide +kernel) (by decide +kernel) (by decide +kernel) (.done _)

end GoTable
