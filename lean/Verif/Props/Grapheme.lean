import Verif.Proofs.StepWidth
import Verif.Spec.Iteration
/-!
# Properties of grapheme segmentation: C01, C02, C03, C04, C45, C46
-/

namespace GoTable
open Spec

/-! ## C01 -/

/-- C01. The rune lists that successive `Next`/`Runes` calls give make up the text, and some number of
them makes up exactly its first `i` runes if and only if the UAX #29 rules put a boundary there. -/
theorem C01_boundaries_follow_UAX29 (s : GoString) :
    (clustersFrom (newGraphemes s)).flatten = runes s ∧
    (∀ c ∈ clustersFrom (newGraphemes s), c ≠ []) ∧
    ∀ i, 0 < i → (hi : i < (runes s).length) →
      ((∃ j, ((clustersFrom (newGraphemes s)).take j).flatten = (runes s).take i) ↔
        BoundaryAt (runes s) i hi) := by
  rw [clusters_eq_segments]
  exact ⟨segments_flatten _, segments_mem_ne_nil _, fun i h0 hi => segments_boundary _ i h0 hi⟩

/-- A text with several rules at work (flag pair, CR LF, e + combining acute). -/
example : 1 < (runes (lit "🇩🇪\r\néx")).length ∧
    clustersFrom (newGraphemes (lit "🇩🇪\r\néx"))
      = [[0x1F1E9, 0x1F1EA], [0x0D, 0x0A], [0x65, 0x301], [0x78]] := by decide +kernel

/-! ## C02 -/

theorem afterNext_succ' (g : Graphemes) (n : Nat) : afterNext g (n + 1) = afterNext g.next.2 n := by
  induction n with
  | zero => rfl
  | succ n ih => rw [afterNext, ih]; rfl

theorem iteration_lossless (g : Graphemes) :
    ∃ m, m ≤ g.remaining.length ∧
      (∀ n, n < m → nextReturns g n = true ∧ (afterNext g (n + 1)).cluster ≠ [] ∧
        (afterNext g (n + 1)).runes = some (runes (afterNext g (n + 1)).cluster)) ∧
      (∀ n, m ≤ n → nextReturns g n = false ∧ (afterNext g (n + 1)).runes = none) ∧
      ((List.range m).map (fun n => (afterNext g (n + 1)).cluster)).flatten = g.remaining := by
  induction hk : g.remaining.length using Nat.strongRecOn generalizing g with
  | _ k ih =>
    by_cases hr : g.remaining = []
    · refine ⟨0, by omega, by simp, ?_, by simp [hr]⟩
      have hfix : ∀ n, (afterNext g n).remaining = [] := by
        intro n
        induction n with
        | zero => exact hr
        | succ n ihn => simp [afterNext, Graphemes.next, ihn]
      intro n _
      have := hfix n
      refine ⟨by simp [nextReturns, Graphemes.next, this], ?_⟩
      simp [afterNext, Graphemes.next, this, Graphemes.runes]
    · have hlen : g.remaining.length ≠ 0 := by
        have := List.length_pos_iff.mpr hr; omega
      have hsplit := stepString_split g.remaining g.state hr
      have hnext : g.next = (true, { g with
          offset := g.offset + g.cluster.length
          cluster := (stepString g.remaining g.state).cluster
          remaining := (stepString g.remaining g.state).rest
          boundaries := (stepString g.remaining g.state).boundaries
          state := (stepString g.remaining g.state).newState }) := by
        unfold Graphemes.next; rw [if_neg hlen]
      have hrem : g.next.2.remaining = (stepString g.remaining g.state).rest := by rw [hnext]
      have hlt := stepString_rest_lt g.remaining g.state hr
      obtain ⟨m, hm, h1, h2, h3⟩ := ih g.next.2.remaining.length (by rw [hrem]; omega) g.next.2 rfl
      refine ⟨m + 1, by rw [hrem] at hm; omega, ?_, ?_, ?_⟩
      · intro n hn
        cases n with
        | zero =>
          refine ⟨by simp [nextReturns, afterNext, hnext], ?_, ?_⟩
          · simp only [afterNext, hnext]; exact hsplit.2
          · simp only [afterNext, hnext, Graphemes.runes]
            rw [if_neg (by omega)]
        | succ n =>
          have := h1 n (by omega)
          rw [nextReturns, afterNext_succ', afterNext_succ' g (n + 1)]
          exact this
      · intro n hn
        obtain ⟨n, rfl⟩ : ∃ j, n = j + 1 := ⟨n - 1, by omega⟩
        rw [nextReturns, afterNext_succ', afterNext_succ' g (n + 1)]
        exact h2 n (by omega)
      · rw [List.range_succ_eq_map, List.map_cons, List.map_map, List.flatten_cons]
        have hf : ((fun n => (afterNext g (n + 1)).cluster) ∘ Nat.succ)
            = fun n => (afterNext g.next.2 (n + 1)).cluster := by
          funext n
          show (afterNext g (n + 1 + 1)).cluster = _
          rw [afterNext_succ']
        rw [hf, h3, hrem]
        simp only [afterNext, hnext]
        exact hsplit.1

/-- C02. Before the first call of `Next`, `Runes` gives nil. There is a number `m` of clusters, at most one
per byte, such that the first `m` calls of `Next` return true, each leaving a non-empty
cluster with its runes available, these clusters concatenate to the input, and every later call returns false and leaves `Runes` nil. -/
theorem C02_iteration_lossless_and_finite (s : GoString) :
    (newGraphemes s).runes = none ∧
    ∃ m, m ≤ s.length ∧
      (∀ n, n < m → nextReturns (newGraphemes s) n = true ∧
        (afterNext (newGraphemes s) (n + 1)).cluster ≠ [] ∧
        (afterNext (newGraphemes s) (n + 1)).runes
          = some (runes (afterNext (newGraphemes s) (n + 1)).cluster)) ∧
      (∀ n, m ≤ n → nextReturns (newGraphemes s) n = false ∧
        (afterNext (newGraphemes s) (n + 1)).runes = none) ∧
      ((List.range m).map (fun n => (afterNext (newGraphemes s) (n + 1)).cluster)).flatten = s :=
  ⟨rfl, iteration_lossless (newGraphemes s)⟩

example : nextReturns (newGraphemes (lit "éx")) 1 = true ∧
    nextReturns (newGraphemes (lit "éx")) 2 = false := by decide +kernel

/-! ## C03 -/

/-- Everything handed on starts at a token of `s`, with a state that stands for the state the parser is
in after the first rune of what is left. -/
theorem handed_entry (s r : GoString) (st : Int) (h : Handed s r st) :
    (∃ k, r = s.drop (off s k) ∧ (r ≠ [] → 0 < k → ∃ j, ((segments (runes s)).take j).flatten
      = (runes s).take k) ∧ (k = 0 → st = -1)) ∧
    (r ≠ [] → EntryState st (decodeRune r).1 (T (-1) (decodeRune r).1).newState ∧
      ∃ j, segments (runes r) = (segments (runes s)).drop j) := by
  induction h with
  | start =>
    exact ⟨⟨0, by simp, by omega, by simp⟩, fun _ => ⟨Or.inl ⟨by omega, rfl⟩, 0, by simp⟩⟩
  | @step r st h hr ih =>
    obtain ⟨⟨k, hk, _, _⟩, ih2⟩ := ih
    obtain ⟨he, j, hj⟩ := ih2 hr
    have hspec := stepString_spec r hr st _ he
    dsimp only at hspec
    obtain ⟨_, hrest, _, hns⟩ := hspec
    have hrr := runes_of_ne_nil hr
    have hdrop : (runes r).drop 1 = runes (r.drop (decodeRune r).2) := by rw [hrr]; rfl
    have hseg : segments (runes r) = ((decodeRune r).1 ::
          (scan (T (-1) (decodeRune r).1).newState ((runes r).drop 1)).1) ::
        segments ((scan (T (-1) (decodeRune r).1).newState ((runes r).drop 1)).2.1) := by
      rw [hdrop]
      conv_lhs => rw [hrr, segments, segs_scan]
      congr 1
      cases hsc : (scan (T (-1) (decodeRune r).1).newState (runes (r.drop (decodeRune r).2))).2.1 with
      | nil => rfl
      | cons x xs => dsimp only [segments]; rw [scan_restart _ _ _ _ hsc]
    have hrunes : runes (stepString r st).rest
        = (scan (T (-1) (decodeRune r).1).newState ((runes r).drop 1)).2.1 := by
      rw [hrest, runes_drop_off, scan_rest, List.drop_drop]
    have hoff : (stepString r st).rest = s.drop (off s (k + (1 +
        (scan (T (-1) (decodeRune r).1).newState ((runes r).drop 1)).1.length))) := by
      rw [hrest]
      generalize 1 + (scan (T (-1) (decodeRune r).1).newState ((runes r).drop 1)).1.length = m
      have : off s (k + m) = off s k + off r m := by
        have h1 : (tokens s).take (k + m) = (tokens s).take k ++ (tokens r).take m := by
          rw [List.take_add, hk, tokens_drop_off]
        unfold off
        rw [h1, List.map_append, List.sum_append]
      rw [this, ← List.drop_drop, ← hk]
    have hj' : segments (runes (stepString r st).rest) = (segments (runes s)).drop (j + 1) := by
      rw [hrunes, ← List.drop_drop, ← hj, hseg, List.drop_succ_cons, List.drop_zero]
    refine ⟨⟨_, hoff, ?_, by omega⟩, ?_⟩
    · intro hne _
      refine ⟨j + 1, ?_⟩
      have h1 : ((segments (runes s)).take (j + 1)).flatten ++ ((segments (runes s)).drop (j + 1)).flatten
          = runes s := by
        rw [← List.flatten_append, List.take_append_drop, segments_flatten]
      rw [← hj', segments_flatten, hoff, runes_drop_off] at h1
      have h2 := List.take_append_drop (k + (1 +
        (scan (T (-1) (decodeRune r).1).newState ((runes r).drop 1)).1.length)) (runes s)
      have := h1.trans h2.symm
      exact List.append_cancel_right this
    · intro hne
      refine ⟨?_, j + 1, hj'⟩
      have hrn := runes_of_ne_nil hne
      rw [hrunes] at hrn
      right
      refine ⟨T_newState_le _ _, ?_⟩
      rw [hns _ _ hrn, scan_restart _ _ _ _ (by rw [← hdrop] at *; exact hrn)]

/-- C03. Whenever `StepString` is used as documented, the pair handed on resumes exactly where the
whole-string segmentation is: what is left starts at a boundary of the whole text (or is all of it),
its clusters are the remaining clusters of the whole text, and the next call with the returned state is
the same as a fresh call with -1 on what is left. -/
theorem C03_stepString_resumable (s r : GoString) (st : Int) (h : Handed s r st) (hr : r ≠ []) :
    (∃ j, clustersFrom (newGraphemes r) = (clustersFrom (newGraphemes s)).drop j) ∧
    (∃ k before, s = before ++ r ∧ runes before = (runes s).take k ∧ runes r = (runes s).drop k ∧
      (k ≠ 0 → ∃ hk : k < (runes s).length, BoundaryAt (runes s) k hk)) ∧
    stepString r st = stepString r (-1) := by
  obtain ⟨⟨k, hk, hb, _⟩, h2⟩ := handed_entry s r st h
  obtain ⟨he, j, hj⟩ := h2 hr
  refine ⟨⟨j, by rw [clusters_eq_segments, clusters_eq_segments, hj]⟩,
    ⟨k, s.take (off s k), by rw [hk, List.take_append_drop], runes_take_off s k, by rw [hk, runes_drop_off], ?_⟩,
    stepString_congr r st (-1) _ he (Or.inl ⟨by omega, rfl⟩)⟩
  intro hk0
  have hlt : k < (runes s).length := by
    by_contra hc
    apply hr
    rw [hk, off_all s k (by simpa using hc)]; simp
  exact ⟨hlt, (segments_boundary (runes s) k (by omega) hlt).mp (hb hr (by omega))⟩

/-- C03. An empty text has no cluster: all results are empty or zero, whatever the state. -/
theorem C03_stepString_empty (st : Int) : stepString [] st = ⟨[], [], 0, 0⟩ := rfl

example : stepString [] (stepString [0x61] (-1)).newState = ⟨[], [], 0, 0⟩ := C03_stepString_empty _

/-- The cluster that a documented call returns is the next cluster of the whole text. -/
theorem C03_stepString_cluster (s r : GoString) (st : Int) (h : Handed s r st) (hr : r ≠ []) :
    (stepString r st).cluster ++ (stepString r st).rest = r ∧
    ∃ j, (clustersFrom (newGraphemes s))[j]? = some (runes (stepString r st).cluster) ∧
      clustersFrom (newGraphemes r) = (clustersFrom (newGraphemes s)).drop j := by
  refine ⟨(stepString_split r st hr).1, ?_⟩
  obtain ⟨_, h2⟩ := handed_entry s r st h
  obtain ⟨he, j, hj⟩ := h2 hr
  refine ⟨j, ?_, by rw [clusters_eq_segments, clusters_eq_segments, hj]⟩
  have hspec := stepString_spec r hr st _ he
  dsimp only at hspec
  rw [hspec.1, runes_take_off, clusters_eq_segments]
  have h3 : (segments (runes s))[j]? = (segments (runes r)).head? := by
    rw [hj, List.head?_drop]
  rw [h3, runes_of_ne_nil hr, segments, segs_scan, List.head?_cons, Nat.add_comm, List.take_succ_cons]
  rw [List.drop_succ_cons, List.drop_zero]
  congr 1
  have hap := scan_append (T (-1) (decodeRune r).1).newState (runes (r.drop (decodeRune r).2))
  generalize (scan (T (-1) (decodeRune r).1).newState (runes (r.drop (decodeRune r).2))).1 = a at *
  generalize (scan (T (-1) (decodeRune r).1).newState (runes (r.drop (decodeRune r).2))).2.1 = b at *
  rw [← hap, List.take_left]; rfl

example : ∃ st, Handed (lit "éx") (lit "x") st ∧ lit "x" ≠ [] :=
  ⟨_, by
    have := Handed.step (Handed.start (s := lit "éx")) (by decide +kernel)
    rw [show (stepString (lit "éx") (-1)).rest = lit "x" by decide +kernel] at this
    exact ⟨this, by decide +kernel⟩⟩

/-! ## C04 -/

/-- The range tables of package runewidth. -/
def rangeTables : List IntervalTable :=
  [combining, doublewidth, ambiguous, narrow, neutral, emoji, privateUse, nonprint]

/-- The property tables of package uniseg. -/
def propertyTables : List (List (Nat × Nat × Nat)) :=
  [graphemeCodePoints, eastAsianWidth, emojiPresentation]

/-- C04, range tables: the search answers membership, and at most one interval contains a rune. -/
theorem C04_inTable_iff_member (t : IntervalTable) (ht : t ∈ rangeTables) (r : Nat) :
    (inTable r t = true ↔ InIntervals r t) ∧
    ∀ e ∈ t, ∀ e' ∈ t, e.1 ≤ r → r ≤ e.2 → e'.1 ≤ r → r ≤ e'.2 → e = e' := by
  have hs : SortedIntervals t := by
    simp only [rangeTables, List.mem_cons, List.not_mem_nil, or_false] at ht
    rcases ht with rfl | rfl | rfl | rfl | rfl | rfl | rfl | rfl
    · exact combining_sorted
    · exact doublewidth_sorted
    · exact ambiguous_sorted
    · exact narrow_sorted
    · exact neutral_sorted
    · exact emoji_sorted
    · exact privateUse_sorted
    · exact nonprint_sorted
  refine ⟨inTable_correct t hs r, ?_⟩
  intro e he e' he' h1 h2 h3 h4
  obtain ⟨i, hi, rfl⟩ := List.getElem_of_mem he
  obtain ⟨j, hj, rfl⟩ := List.getElem_of_mem he'
  rcases Nat.lt_trichotomy i j with h | h | h
  · have := sorted_getElem hs i j h hj; omega
  · subst h; rfl
  · have := sorted_getElem hs j i h hi; omega

/-- C04, property tables: a rune gets the property of the row that contains it, and 0 when no row does. At most one
row contains it, and no row has the property 0. -/
theorem C04_property_iff_member (d : List (Nat × Nat × Nat)) (hd : d ∈ propertyTables) (r : Nat) :
    (∀ e ∈ d, e.1 ≤ r → r ≤ e.2.1 → property d r = e.2.2) ∧
    ((∀ e ∈ d, ¬ (e.1 ≤ r ∧ r ≤ e.2.1)) → property d r = 0) ∧
    (∀ e ∈ d, ∀ e' ∈ d, e.1 ≤ r → r ≤ e.2.1 → e'.1 ≤ r → r ≤ e'.2.1 → e = e') ∧ ∀ e ∈ d, e.2.2 ≠ 0 := by
  have hnz : ∀ d ∈ propertyTables, ∀ e ∈ d, e.2.2 ≠ 0 := by decide +kernel
  have hs : SortedIntervals (ranges d) := by
    simp only [propertyTables, List.mem_cons, List.not_mem_nil, or_false] at hd
    rcases hd with rfl | rfl | rfl
    · exact graphemeCodePoints_sorted
    · exact eastAsianWidth_sorted
    · exact emojiPresentation_sorted
  refine ⟨fun e he h1 h2 => property_eq_of_mem d hs e he r h1 h2, property_eq_zero_of_not_mem d hs r, ?_, hnz d hd⟩
  intro e he e' he' h1 h2 h3 h4
  obtain ⟨i, hi, rfl⟩ := List.getElem_of_mem he
  obtain ⟨j, hj, rfl⟩ := List.getElem_of_mem he'
  have lt : ∀ i j (hij : i < j) (hj : j < d.length), d[i].2.1 < d[j].1 := fun i j hij hj => by
    have := sorted_getElem hs i j hij (by simpa [ranges] using hj)
    simpa [ranges] using this
  rcases Nat.lt_trichotomy i j with h | h | h
  · have := lt i j h hj; omega
  · subst h; rfl
  · have := lt j i h hi; omega

/-! ## C45 -/

theorem lv_rows : (graphemeCodePoints.filter fun e => e.2.2 == 12)
    = (List.range 399).map fun k => (0xAC00 + 28 * k, 0xAC00 + 28 * k, 12) := by decide +kernel

theorem lvt_rows : (graphemeCodePoints.filter fun e => e.2.2 == 13)
    = (List.range 399).map fun k => (0xAC01 + 28 * k, 0xAC1B + 28 * k, 13) := by decide +kernel

/-- C45. The class table agrees with the Hangul syllable arithmetic of the Unicode standard: LV exactly
for the precomposed syllables whose offset from U+AC00 is divisible by 28, LVT exactly for the others. -/
theorem C45_hangul_classes (r : Nat) :
    (property graphemeCodePoints r = prLV ↔ 0xAC00 ≤ r ∧ r ≤ 0xD7A3 ∧ (r - 0xAC00) % 28 = 0) ∧
    (property graphemeCodePoints r = prLVT ↔ 0xAC00 ≤ r ∧ r ≤ 0xD7A3 ∧ (r - 0xAC00) % 28 ≠ 0) := by
  constructor
  · rw [show (property graphemeCodePoints r = prLV) ↔ classOf r = .lv from gprop_eq_iff r .lv,
      classOf_code_iff r .lv 12 (by omega) rfl, lv_rows]
    constructor
    · rintro ⟨e, he, h1, h2⟩
      simp only [List.mem_map, List.mem_range] at he
      obtain ⟨k, hk, rfl⟩ := he
      dsimp only at h1 h2
      omega
    · rintro ⟨h1, h2, h3⟩
      refine ⟨_, List.mem_map.mpr ⟨(r - 0xAC00) / 28, List.mem_range.mpr (by omega), rfl⟩, ?_, ?_⟩
      · dsimp only; omega
      · dsimp only; omega
  · rw [show (property graphemeCodePoints r = prLVT) ↔ classOf r = .lvt from gprop_eq_iff r .lvt,
      classOf_code_iff r .lvt 13 (by omega) rfl, lvt_rows]
    constructor
    · rintro ⟨e, he, h1, h2⟩
      simp only [List.mem_map, List.mem_range] at he
      obtain ⟨k, hk, rfl⟩ := he
      dsimp only at h1 h2
      omega
    · rintro ⟨h1, h2, h3⟩
      refine ⟨_, List.mem_map.mpr ⟨(r - 0xAC00) / 28, List.mem_range.mpr (by omega), rfl⟩, ?_, ?_⟩
      · dsimp only; omega
      · dsimp only; omega

example : classOf 0xAC00 = .lv ∧ classOf 0xAC01 = .lvt ∧ classOf 0xD7A4 = .other := by decide +kernel

/-! ## C46 -/

/-- C46. In documented use, the width in the upper bits of `boundaries` is that of the cluster. -/
theorem C46_stepString_width (s r : GoString) (st : Int) (h : Handed s r st) (hr : r ≠ []) :
    (stepString r st).boundaries >>> ShiftWidth = clusterCells (runes (stepString r st).cluster) := by
  obtain ⟨_, h2⟩ := handed_entry s r st h
  obtain ⟨he, _⟩ := h2 hr
  have hspec := stepString_spec r hr st _ he
  dsimp only at hspec
  rw [hspec.2.2.1, hspec.1, runes_take_off, Nat.shiftLeft_shiftRight, fold_clusterCells,
    runes_of_ne_nil hr, Nat.add_comm, List.take_succ_cons, List.drop_succ_cons, List.drop_zero]
  have hap := scan_append (T (-1) (decodeRune r).1).newState (runes (r.drop (decodeRune r).2))
  generalize (scan (T (-1) (decodeRune r).1).newState (runes (r.drop (decodeRune r).2))).1 = a at *
  generalize (scan (T (-1) (decodeRune r).1).newState (runes (r.drop (decodeRune r).2))).2.1 = b at *
  rw [← hap, List.take_left]

/-- The documented cases of the width of a cluster, from its specification. -/
theorem C46_cluster_cases (r : Nat) (tail : List Nat) :
    (r ∉ docExceptions → clusterCells [r] = docWidth r) ∧
    (tail.getLast? = some 0xFE0F → clusterCells (r :: tail) = 2) ∧
    (classOf r = .extPict → tail ≠ [] → tail.getLast? ≠ some 0xFE0E → clusterCells (r :: tail) = 2) ∧
    (classOf r = .extPict → tail.getLast? = some 0xFE0E → clusterCells (r :: tail) = 1) := by
  refine ⟨fun h => by simp [clusterCells, monoWidth, h], ?_, ?_, ?_⟩
  · intro h
    cases htl : tail with
    | nil => rw [htl] at h; simp at h
    | cons x l =>
      rw [← htl]
      have hm : 0xFE0F ∈ tail := List.mem_of_getLast? h
      have haft : (tail.reverse.takeWhile (· ≠ 0xFE0F)) = [] := by
        have hh : tail.reverse.head? = some 0xFE0F := by rw [List.head?_reverse, h]
        cases hrv : tail.reverse with
        | nil => rfl
        | cons y ys => rw [hrv] at hh; simp at hh; simp [hh]
      have hshow : clusterCells (r :: tail) = if classOf r = .extPict then
          (if tail.getLast? = some 0xFE0E then 1 else 2)
          else if classOf r = .ri ∨ classOf r = .l then 2
          else if 0xFE0F ∈ tail then
            2 + (((tail.reverse.takeWhile (· ≠ 0xFE0F)).reverse).map monoWidth).sum
          else monoWidth r + (tail.map monoWidth).sum := by rw [htl]; rfl
      rw [hshow, if_pos hm, haft, h]
      simp
  · intro hc hne hl
    cases tail with
    | nil => exact absurd rfl hne
    | cons x l => simp only [clusterCells, hc, if_true]; rw [if_neg hl]
  · intro hc hl
    cases tail with
    | nil => simp at hl
    | cons x l => simp only [clusterCells, hc, if_true]; rw [if_pos hl]

/-- C46. The documented order of tests gives another width than the code for exactly these 12 code points: 2, where
the code gives 1. -/
theorem C46_exceptions : docExceptions.Nodup ∧ docExceptions.length = 12 ∧
    (∀ r, clusterCells [r] ≠ docWidth r ↔ r ∈ docExceptions) ∧
    ∀ r ∈ docExceptions, docWidth r = 2 ∧ clusterCells [r] = 1 ∧ classOf r = .extPict := by
  have h : ∀ r ∈ docExceptions, docWidth r = 2 ∧ clusterCells [r] = 1 ∧ classOf r = .extPict := by decide +kernel
  refine ⟨by decide, rfl, fun r => ⟨fun hne => ?_, fun hm => ?_⟩, h⟩
  · by_contra hm
    exact hne (by simp [clusterCells, monoWidth, hm])
  · rw [(h r hm).1, (h r hm).2.1]; decide

/-- The code's order of cases and the documented one differ: U+3030 WAVY DASH is documented as 2 wide
(East Asian Wide comes first) and measured as 1. -/
theorem C46_documentation_differs : docWidth 0x3030 = 2 ∧
    (stepString (lit "〰") (-1)).boundaries >>> ShiftWidth = 1 := by decide +kernel

/-- An emoji with skin tone and an emoji forced to text presentation. -/
example : (stepString (lit "👍🏽x") (-1)).boundaries >>> ShiftWidth = 2 ∧
    (stepString (lit "❤︎") (-1)).boundaries >>> ShiftWidth = 1 := by decide +kernel

end GoTable
