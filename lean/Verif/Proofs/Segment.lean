import Verif.Proofs.Decode
import Verif.Proofs.Tables
/-! The byte-level grapheme parser refines a fold over runes. -/

namespace GoTable

/-! ## Token offsets -/

/-- Byte offset of the `k`-th token. -/
def off (s : GoString) (k : Nat) : Nat := (((tokens s).take k).map Prod.snd).sum

@[simp] theorem off_zero (s : GoString) : off s 0 = 0 := by simp [off]

theorem off_succ {s : GoString} (h : s ≠ []) (k : Nat) :
    off s (k + 1) = (decodeRune s).2 + off (s.drop (decodeRune s).2) k := by
  simp [off, tokens_of_ne_nil h]

theorem tokens_drop_off (s : GoString) (k : Nat) : tokens (s.drop (off s k)) = (tokens s).drop k := by
  induction k generalizing s with
  | zero => simp
  | succ k ih =>
    by_cases h : s = []
    · subst h; simp
    · rw [off_succ h, ← List.drop_drop, ih, tokens_of_ne_nil h]; simp

theorem tokens_take_off (s : GoString) (k : Nat) : tokens (s.take (off s k)) = (tokens s).take k := by
  induction k generalizing s with
  | zero => simp
  | succ k ih =>
    by_cases h : s = []
    · subst h; simp
    · have h1 := decodeRune_size s h
      rw [off_succ h]
      have hne : s.take ((decodeRune s).2 + off (s.drop (decodeRune s).2) k) ≠ [] := by
        intro h0
        have := congrArg List.length h0
        rw [List.length_take, List.length_nil] at this; omega
      rw [tokens_of_ne_nil hne, decodeRune_take s _ (by omega) h, List.drop_take,
        Nat.add_sub_cancel_left, ih]
      rw [tokens_of_ne_nil h]; simp

theorem off_le_length (s : GoString) (k : Nat) : off s k ≤ s.length := by
  rw [← tokens_sizes s]
  unfold off
  have h : (tokens s).map Prod.snd
      = ((tokens s).take k).map Prod.snd ++ ((tokens s).drop k).map Prod.snd := by
    rw [← List.map_append, List.take_append_drop]
  rw [h, List.sum_append]; omega

theorem off_all (s : GoString) (k : Nat) (h : (tokens s).length ≤ k) : off s k = s.length := by
  unfold off; rw [List.take_of_length_le h, tokens_sizes]

theorem runes_take_off (s : GoString) (k : Nat) : runes (s.take (off s k)) = (runes s).take k := by
  simp [runes, tokens_take_off, List.map_take]

theorem runes_drop_off (s : GoString) (k : Nat) : runes (s.drop (off s k)) = (runes s).drop k := by
  simp [runes, tokens_drop_off, List.map_drop]

@[simp] theorem length_runes (s : GoString) : (runes s).length = (tokens s).length := by simp [runes]

theorem runes_of_ne_nil {s : GoString} (h : s ≠ []) :
    runes s = (decodeRune s).1 :: runes (s.drop (decodeRune s).2) := by
  simp [runes, tokens_of_ne_nil h]

@[simp] theorem runes_nil : runes [] = [] := by simp [runes]

theorem runes_eq_nil {s : GoString} : runes s = [] ↔ s = [] := by
  simp [runes, tokens_eq_nil]

theorem drop_off_ne_nil {s : GoString} {k : Nat} (h : k < (tokens s).length) :
    s.drop (off s k) ≠ [] := by
  intro h0
  have := tokens_drop_off s k
  rw [h0] at this
  have := congrArg List.length this
  simp at this; omega

theorem off_succ' (s : GoString) (k : Nat) (h : k < (tokens s).length) :
    off s (k + 1) = off s k + (decodeRune (s.drop (off s k))).2 := by
  have h1 := tokens_drop_off s k
  rw [tokens_of_ne_nil (drop_off_ne_nil h), List.drop_eq_getElem_cons h] at h1
  have h2 : decodeRune (s.drop (off s k)) = (tokens s)[k] := (List.cons.inj h1).1
  rw [h2]
  unfold off
  rw [List.take_succ_eq_append_getElem h, List.map_append, List.sum_append]
  simp

theorem off_lt_length {s : GoString} {k : Nat} (h : k < (tokens s).length) : off s k < s.length := by
  have h1 := drop_off_ne_nil h
  have := List.length_pos_iff.mpr h1
  simp at this; omega

/-! ## Transition function facts -/

abbrev T := transitionGraphemeState

/-- Grapheme class of a rune as a number. -/
abbrev gprop (r : Nat) : Nat := property graphemeCodePoints r

theorem gprop_range (r : Nat) : gprop r = 0 ∨ (2 ≤ gprop r ∧ gprop r ≤ 15) := by
  unfold gprop property
  rcases propertySearch_correct _ graphemeCodePoints_sorted r with ⟨e, he, _, _, heq⟩ | ⟨_, heq⟩
  · right
    rw [heq]
    have h : (graphemeCodePoints.all fun e => decide (2 ≤ e.2.2) && decide (e.2.2 ≤ 15)) = true := by
      decide +kernel
    have := List.all_eq_true.mp h e he
    simpa using this
  · left; rw [heq]

@[simp] theorem transitionProp_prop (st : Int) (p : Nat) : (transitionProp st p).prop = p := by
  unfold transitionProp; repeat' split
  all_goals rfl

@[simp] theorem T_prop (st : Int) (r : Nat) : (T st r).prop = gprop r := by
  unfold T transitionGraphemeState; simp

theorem grTransitions_newState_lt :
    ∀ e ∈ grTransitions, e.2.1 ≤ 10 := by decide +kernel

theorem lookup_mem {α β : Type} [BEq α] [LawfulBEq α] {l : List (α × β)} {a : α} {b : β}
    (h : l.lookup a = some b) : (a, b) ∈ l := by
  induction l with
  | nil => simp at h
  | cons x l ih =>
    obtain ⟨k, v⟩ := x
    rw [List.lookup_cons] at h
    split at h
    · rename_i hk
      have := LawfulBEq.eq_of_beq hk
      simp at h; subst this; subst h; simp
    · exact List.mem_cons_of_mem _ (ih h)

theorem transitionProp_newState_le (st : Int) (p : Nat) : (transitionProp st p).newState ≤ 10 := by
  unfold transitionProp
  repeat' split
  all_goals first
    | (rename_i h; exact grTransitions_newState_lt _ (lookup_mem h))
    | (rename_i h _; exact grTransitions_newState_lt _ (lookup_mem h))
    | simp

theorem T_newState_le (st : Int) (r : Nat) : (T st r).newState ≤ 10 := transitionProp_newState_le _ _

/-! ## Runs of the machine over runes -/

/-- Consume runes up to the next boundary: the runes consumed, those left, and the state reached. -/
def scan (st : Nat) : List Nat → List Nat × List Nat × Nat
  | [] => ([], [], st)
  | r :: rs =>
    if (T st r).boundary then ([], r :: rs, st)
    else
      let x := scan (T st r).newState rs
      (r :: x.1, x.2.1, x.2.2)

theorem scan_append (st : Nat) (rs : List Nat) : (scan st rs).1 ++ (scan st rs).2.1 = rs := by
  induction rs generalizing st with
  | nil => simp [scan]
  | cons r rs ih => unfold scan; split <;> simp [ih]

theorem scan_rest (st : Nat) (rs : List Nat) : (scan st rs).2.1 = rs.drop (scan st rs).1.length := by
  have h := scan_append st rs
  generalize (scan st rs).1 = a at *
  generalize (scan st rs).2.1 = b at *
  rw [← h, List.drop_left]

theorem scan_length_le (st : Nat) (rs : List Nat) : (scan st rs).1.length ≤ rs.length := by
  have h := congrArg List.length (scan_append st rs)
  simp at h; omega

/-- One step of the width accumulation of `StepString`. -/
def widthStep (fp : Nat) (w r : Nat) : Nat :=
  if r = vs16 then 2
  else if fp ≠ prExtendedPictographic ∧ fp ≠ prRegionalIndicator ∧ fp ≠ prL then
    w + usRuneWidth r (gprop r)
  else if fp = prExtendedPictographic then
    if r = vs15 then 1 else 2
  else w

/-- The packed state that `StepString` returns. -/
def packState (st p : Nat) : Nat := st ||| (p <<< shiftPropState)

theorem packState_state {st p : Nat} (h : st ≤ 10) : packState st p &&& maskGraphemeState = st := by
  unfold packState shiftPropState maskGraphemeState
  rw [Nat.and_or_distrib_right]
  have h1 : (p <<< 21) &&& 0xf = 0 := by
    rw [show (0xf : Nat) = 2 ^ 4 - 1 from rfl, Nat.and_two_pow_sub_one_eq_mod, Nat.shiftLeft_eq,
      show p * 2 ^ 21 = 2 ^ 4 * (p * 2 ^ 17) by omega]
    simp
  have h2 : st &&& 0xf = st := by
    rw [show (0xf : Nat) = 2 ^ 4 - 1 from rfl, Nat.and_two_pow_sub_one_eq_mod]; omega
  rw [h1, h2]; simp

theorem packState_prop {st p : Nat} (h : st ≤ 10) : packState st p >>> shiftPropState = p := by
  unfold packState shiftPropState
  rw [Nat.shiftRight_or_distrib, Nat.shiftLeft_shiftRight, Nat.shiftRight_eq_div_pow]
  have : st / 2 ^ 21 = 0 := Nat.div_eq_of_lt (by omega)
  rw [this]; simp

/-- What one call of the `StepString` loop does, in terms of runes. -/
theorem stepLoop_spec (s : GoString) (k gs fp w : Nat) (hk : k < (tokens s).length) :
    let sc := scan gs ((runes s).drop k)
    let j := k + sc.1.length
    let res := stepLoop s (off s k) gs fp w
    res.cluster = s.take (off s j) ∧ res.rest = s.drop (off s j) ∧
    res.boundaries = (sc.1.foldl (widthStep fp) w) <<< ShiftWidth ∧
    (∀ r rs, sc.2.1 = r :: rs → res.newState = packState (T sc.2.2 r).newState (gprop r)) := by
  induction hn : (tokens s).length - k generalizing k gs w with
  | zero => omega
  | succ n ih =>
    have hd : (runes s).drop k = (decodeRune (s.drop (off s k))).1 :: (runes s).drop (k + 1) := by
      rw [← runes_drop_off, runes_of_ne_nil (drop_off_ne_nil hk), List.drop_drop, ← off_succ' s k hk,
        runes_drop_off]
    rw [hd]
    unfold stepLoop
    dsimp only
    by_cases hb : (T gs (decodeRune (s.drop (off s k))).1).boundary = true
    · have hsc : scan gs ((decodeRune (s.drop (off s k))).1 :: (runes s).drop (k + 1))
          = ([], (decodeRune (s.drop (off s k))).1 :: (runes s).drop (k + 1), gs) := by
        rw [scan]; simp [hb]
      rw [if_pos hb, hsc]
      refine ⟨rfl, rfl, rfl, ?_⟩
      intro r rs h
      dsimp only at h ⊢
      rw [List.cons.injEq] at h
      obtain ⟨rfl, _⟩ := h
      unfold packState
      rw [← T_prop gs]
    · rw [if_neg hb]
      have hsc : scan gs ((decodeRune (s.drop (off s k))).1 :: (runes s).drop (k + 1))
          = ((decodeRune (s.drop (off s k))).1 ::
              (scan (T gs (decodeRune (s.drop (off s k))).1).newState ((runes s).drop (k + 1))).1,
            (scan (T gs (decodeRune (s.drop (off s k))).1).newState ((runes s).drop (k + 1))).2) := by
        rw [scan]; simp [hb]
      rw [hsc]
      dsimp only
      generalize hT : T gs (decodeRune (s.drop (off s k))).1 = tr
      have hp : tr.prop = gprop (decodeRune (s.drop (off s k))).1 := by rw [← hT, T_prop]
      have hw : (if (decodeRune (s.drop (off s k))).1 = vs16 then 2
          else if fp ≠ prExtendedPictographic ∧ fp ≠ prRegionalIndicator ∧ fp ≠ prL then
            w + usRuneWidth (decodeRune (s.drop (off s k))).1 tr.prop
          else if fp = prExtendedPictographic then
            if (decodeRune (s.drop (off s k))).1 = vs15 then 1 else 2
          else w) = widthStep fp w (decodeRune (s.drop (off s k))).1 := by
        unfold widthStep; rw [hp]
      rw [show transitionGraphemeState gs (decodeRune (s.drop (off s k))).1 = tr from hT, hw]
      have hoff := off_succ' s k hk
      rw [← hoff]
      by_cases hend : s.length ≤ off s (k + 1)
      · have hk1 : (tokens s).length ≤ k + 1 := by
          by_contra hc
          have := off_lt_length (s := s) (k := k + 1) (by omega)
          omega
        rw [dif_pos hend]
        have hnil : (runes s).drop (k + 1) = [] := by
          apply List.drop_eq_nil_of_le; simpa using hk1
        rw [hnil]
        simp only [scan, List.length_cons, List.length_nil, List.foldl_cons, List.foldl_nil]
        have : off s (k + (0 + 1)) = s.length := off_all s _ (by omega)
        rw [this]
        simp
      · rw [dif_neg hend]
        have hk1 : k + 1 < (tokens s).length := by
          by_contra hc
          exact hend (by rw [off_all s (k + 1) (by omega)]; exact Nat.le_refl _)
        have := ih (k + 1) tr.newState (widthStep fp w (decodeRune (s.drop (off s k))).1) hk1 (by omega)
        dsimp only at this
        rw [List.length_cons, show k + ((scan tr.newState (List.drop (k + 1) (runes s))).1.length + 1)
          = k + 1 + (scan tr.newState (List.drop (k + 1) (runes s))).1.length by omega, List.foldl_cons]
        exact this

/-- `state` is what the parser passes to `StepString` before `s`: the start value, or the packed state
whose parser state is `gs`. In both cases `gs` is the parser state after the first rune of `s`. -/
def EntryState (state : Int) (r : Nat) (gs : Nat) : Prop :=
  (state < 0 ∧ gs = (T state r).newState) ∨ (gs ≤ 10 ∧ state = (packState gs (gprop r) : Int))

theorem stepString_spec (s : GoString) (hs : s ≠ []) (state : Int) (gs : Nat)
    (he : EntryState state (decodeRune s).1 gs) :
    let r0 := (decodeRune s).1
    let sc := scan gs ((runes s).drop 1)
    let j := 1 + sc.1.length
    let res := stepString s state
    res.cluster = s.take (off s j) ∧ res.rest = s.drop (off s j) ∧
    res.boundaries = (sc.1.foldl (widthStep (gprop r0)) (usRuneWidth r0 (gprop r0))) <<< ShiftWidth ∧
    (∀ r rs, sc.2.1 = r :: rs → res.newState = packState (T sc.2.2 r).newState (gprop r)) := by
  have hpos : 0 < s.length := List.length_pos_iff.mpr hs
  have hoff1 : off s 1 = (decodeRune s).2 := by rw [show 1 = 0 + 1 from rfl, off_succ hs]; simp
  unfold stepString
  rw [if_neg (by omega)]
  dsimp only
  by_cases hl : s.length ≤ (decodeRune s).2
  · rw [if_pos hl]
    have hsz := decodeRune_size s hs
    have hd : s.drop (decodeRune s).2 = [] := List.drop_eq_nil_of_le hl
    have hr : runes s = [(decodeRune s).1] := by rw [runes_of_ne_nil hs, hd]; simp
    simp only [hr, List.drop_succ_cons, List.drop_zero, scan, List.length_nil, List.foldl_nil]
    rw [hoff1, List.take_of_length_le hl, hd]
    simp
  · rw [if_neg hl]
    have hk : 1 < (tokens s).length := by
      by_contra hc
      have := off_all s 1 (by omega)
      omega
    have h1 : (if state < 0 then (transitionGraphemeState state (decodeRune s).1).newState
        else state.toNat &&& maskGraphemeState) = gs := by
      rcases he with ⟨h, rfl⟩ | ⟨h, rfl⟩
      · rw [if_pos h]
      · rw [if_neg (by omega), Int.toNat_natCast, packState_state h]
    have h2 : (if state < 0 then (transitionGraphemeState state (decodeRune s).1).prop
        else state.toNat >>> shiftPropState) = gprop (decodeRune s).1 := by
      rcases he with ⟨h, rfl⟩ | ⟨h, rfl⟩
      · rw [if_pos h]; exact T_prop _ _
      · rw [if_neg (by omega), Int.toNat_natCast, packState_prop h]
    rw [h1, h2, ← hoff1]
    exact stepLoop_spec s 1 gs (gprop (decodeRune s).1) _ hk

/-! ## The iterator -/

/-- Segments of the remaining runes, given the state reached and the runes of the current cluster. -/
def segs (st : Nat) (cur : List Nat) : List Nat → List (List Nat)
  | [] => [cur]
  | r :: rs =>
    if (T st r).boundary then cur :: segs (T st r).newState [r] rs
    else segs (T st r).newState (cur ++ [r]) rs

theorem segs_scan (st : Nat) (cur rs : List Nat) :
    segs st cur rs = (cur ++ (scan st rs).1) ::
      (match (scan st rs).2.1 with
       | [] => []
       | r :: rs' => segs (T (scan st rs).2.2 r).newState [r] rs') := by
  induction rs generalizing st cur with
  | nil => simp [segs, scan]
  | cons r rs ih =>
    rw [segs, scan]
    by_cases hb : (T st r).boundary = true
    · rw [if_pos hb, if_pos hb]; simp
    · rw [if_neg hb, if_neg hb, ih]; simp

/-- Segments of a whole string, as rune lists. -/
def segments (rs : List Nat) : List (List Nat) :=
  match rs with
  | [] => []
  | r :: rs => segs (T (-1) r).newState [r] rs

/-- The iterator visits the segments. -/
theorem clustersFrom_eq (g : Graphemes) (r : Nat) (rs : List Nat) (gs : Nat)
    (hr : runes g.remaining = r :: rs) (he : EntryState g.state r gs) :
    clustersFrom g = segs gs [r] rs := by
  induction hn : g.remaining.length using Nat.strongRecOn generalizing g r rs gs with
  | _ n ih =>
    have hne : g.remaining ≠ [] := by intro h; rw [h] at hr; simp at hr
    have hr0 : (decodeRune g.remaining).1 = r ∧ (runes g.remaining).drop 1 = rs := by
      have := runes_of_ne_nil hne
      rw [hr] at this ⊢
      exact ⟨(List.cons.inj this).1.symm, rfl⟩
    have hlen : g.remaining.length ≠ 0 := by
      have := List.length_pos_iff.mpr hne; omega
    have hspec := stepString_spec g.remaining hne g.state gs (by rw [hr0.1]; exact he)
    dsimp only at hspec
    rw [hr0.2, hr0.1] at hspec
    obtain ⟨hc, hrest, hb, hns⟩ := hspec
    have hnext : g.next = (true, { g with
        offset := g.offset + g.cluster.length
        cluster := (stepString g.remaining g.state).cluster
        remaining := (stepString g.remaining g.state).rest
        boundaries := (stepString g.remaining g.state).boundaries
        state := (stepString g.remaining g.state).newState }) := by
      unfold Graphemes.next; rw [if_neg hlen]
    unfold clustersFrom
    rw [dif_pos (by rw [hnext]), hnext]
    dsimp only
    rw [segs_scan]
    have hrunes : runes (stepString g.remaining g.state).cluster = [r] ++ (scan gs rs).1 := by
      rw [hc, runes_take_off, hr, Nat.add_comm, List.take_succ_cons]
      have h := scan_append gs rs
      generalize (scan gs rs).1 = a at *
      generalize (scan gs rs).2.1 = b at *
      rw [← h, List.take_left]; rfl
    have hrunes2 : runes (stepString g.remaining g.state).rest = (scan gs rs).2.1 := by
      rw [hrest, runes_drop_off, hr, Nat.add_comm, List.drop_succ_cons, scan_rest]
    refine congrArg₂ List.cons ?_ ?_
    · unfold Graphemes.runes
      dsimp only
      rw [if_neg (by omega), hrunes]; rfl
    · cases hsc : (scan gs rs).2.1 with
      | nil =>
        rw [hsc] at hrunes2
        have h0 := runes_eq_nil.mp hrunes2
        unfold clustersFrom
        rw [dif_neg]
        unfold Graphemes.next
        simp [h0]
      | cons r' rs' =>
        dsimp only
        rw [hsc] at hrunes2
        refine ih _ ?_ _ r' rs' _ hrunes2 ?_ rfl
        · subst hn; exact stepString_rest_lt _ _ hne
        · right
          exact ⟨T_newState_le _ _, by dsimp only; rw [hns r' rs' hsc]⟩

theorem clusters_eq_segments (s : GoString) : clustersFrom (newGraphemes s) = segments (runes s) := by
  by_cases hs : s = []
  · subst hs
    unfold clustersFrom
    simp [newGraphemes, Graphemes.next, segments]
  · rw [runes_of_ne_nil hs]
    exact clustersFrom_eq _ _ _ _ (runes_of_ne_nil hs) (Or.inl ⟨by simp [newGraphemes], rfl⟩)

end GoTable
