import Verif.Proofs.Cached
import Verif.Props.Escape
import Verif.Props.Merge
/-!
# Properties of whole calls that go through the width cache: C69, C70, C71
-/

namespace GoTable

open Spec

variable {σ ι ν ε α : Type}

/-! ## C69 -/

/-- C69. Any program that uses the package, run with the cache, computes what it would compute with
every width measured from scratch; and it leaves only true widths in the cache. -/
theorem C69_programs (f : Flags) (ev : Nat → Evict × Evict) (p : Prog α) (n : Nat) (c : Cache)
    (hc : Sound f c) :
    (p.runCached f ev n c).1 = p.runPure f ∧ Sound f (p.runCached f ev n c).2.2 := by
  induction p generalizing n c with
  | ret a => exact ⟨rfl, hc⟩
  | measure s k ih =>
    have h := cached_correct f c hc (ev n).1 (ev n).2 s
    have := ih (visualWidthCached f (ev n).1 (ev n).2 c s).1 (n + 1)
      (visualWidthCached f (ev n).1 (ev n).2 c s).2 h.2
    refine ⟨?_, this.2⟩
    show ((k _).runCached f ev (n + 1) _).1 = (k (visualWidth f s)).runPure f
    rw [this.1, h.1]

/-- C69. The three alignments. -/
theorem C69_alignments (f : Flags) (ev : Nat → Evict × Evict) (n : Nat) (c : Cache) (hc : Sound f c)
    (s : GoString) (w : UInt16) :
    ((alignmentLeftP s w).runCached f ev n c).1 = alignmentLeft f s w ∧
    ((alignmentRightP s w).runCached f ev n c).1 = alignmentRight f s w ∧
    ((alignmentCenterP s w).runCached f ev n c).1 = alignmentCenter f s w :=
  ⟨(C69_programs f ev _ n c hc).1.trans (alignmentLeftP_pure f s w),
    (C69_programs f ev _ n c hc).1.trans (alignmentRightP_pure f s w),
    (C69_programs f ev _ n c hc).1.trans (alignmentCenterP_pure f s w)⟩

/-- C69. `FormatItem`: the row or error, the table afterwards and the user's state are those of a table
without a cache. -/
theorem C69_format_item (f : Flags) (ev : Nat → Evict × Evict) (n : Nat) (c : Cache) (hc : Sound f c)
    (t : TableP σ ι ν ε) (item : ι) (st : σ) :
    let r := ((t.formatItem item st).runCached f ev n c).1
    (r.1, plainTable f r.2.1, r.2.2) = (plainTable f t).formatItem f item st := by
  dsimp only
  rw [(C69_programs f ev _ n c hc).1, formatItemP_pure]

/-- C69. `FormatItemBasic`. -/
theorem C69_format_item_basic (f : Flags) (ev : Nat → Evict × Evict) (n : Nat) (c : Cache)
    (hc : Sound f c) (t : TableP σ ι ν ε) (item : ι) (sep : GoString) (st : σ) :
    ((t.formatItemBasic item sep st).runCached f ev n c).1 =
      (plainTable f t).formatItemBasic item sep st :=
  (C69_programs f ev _ n c hc).1.trans (formatItemBasicP_pure f t item sep st)

/-- C69. `AlignFormattedItem`. -/
theorem C69_align_item (f : Flags) (ev : Nat → Evict × Evict) (n : Nat) (c : Cache) (hc : Sound f c)
    (t : TableP σ ι ν ε) (m : Memory) (s : Slice) :
    ((t.alignFormattedItem m s).runCached f ev n c).1 = (plainTable f t).alignFormattedItem m s :=
  (C69_programs f ev _ n c hc).1.trans (alignFormattedItemP_pure f t m s)

/-- C69. `FormatHeader`. -/
theorem C69_header (f : Flags) (ev : Nat → Evict × Evict) (n : Nat) (c : Cache) (hc : Sound f c)
    (t : TableP σ ι ν ε) (sep : GoString) :
    ((t.formatHeader sep).runCached f ev n c).1 = (plainTable f t).formatHeader f sep :=
  (C69_programs f ev _ n c hc).1.trans (formatHeaderP_pure f t sep)

/-- C69. The merge row by row; also whether it is still searching after so many rounds. -/
theorem C69_horizontal (f : Flags) (ev : Nat → Evict × Evict) (n : Nat) (c : Cache) (hc : Sound f c)
    (t : TableP σ ι ν ε) (items : Items) (maxWidth : Int) (sep : GoString) (compact : Bool)
    (fails : Nat → Bool) (fuel : Nat) :
    ((t.mergeRowsHorizontal items maxWidth sep compact fails fuel).runCached f ev n c).1 =
      mergeRowsHorizontal f (plainTable f t) items maxWidth sep compact fails fuel :=
  (C69_programs f ev _ n c hc).1.trans
    (mergeRowsHorizontalP_pure f t items maxWidth sep compact fails fuel)

/-- C69. The merge column by column. -/
theorem C69_vertical (f : Flags) (ev : Nat → Evict × Evict) (n : Nat) (c : Cache) (hc : Sound f c)
    (t : TableP σ ι ν ε) (items : Items) (maxWidth : Int) (sep : GoString) (compact : Bool)
    (fails : Nat → Bool) :
    ((t.mergeRowsVertical items maxWidth sep compact fails).runCached f ev n c).1 =
      mergeRowsVertical f (plainTable f t) items maxWidth sep compact fails :=
  (C69_programs f ev _ n c hc).1.trans
    (mergeRowsVerticalP_pure f t items maxWidth sep compact fails)

/-- A table for the examples, like `exampleTable`: the second column is aligned right by the package. -/
def cachedTable : TableP Nat (List (Option GoString)) GoString Nat :=
  { columns := exampleTable.columns.map fun c =>
      { getter :=
          { value := fun i st => .ret (c.getter.value i st)
            valueString := fun n i st => .ret (c.getter.valueString n i st)
            format := fun i v st => .ret (c.getter.format i v st) }
        alignment := if c.name = lit "b" then some alignmentRightP else none
        name := c.name
        title := c.title
        shortTitle := c.shortTitle }
    columnWidth := exampleTable.columnWidth }

/-- A cache that already holds a width, and one that forgets every other string it is told. -/
example : Sound exampleFlags (fun s => if s = lit "中文" then some 4 else none) ∧
    ((cachedTable.mergeRowsVertical exampleItems 20 (lit "|") true (fun _ => false)).runCached exampleFlags
      (fun k => (fun _ => k % 2 = 0, fun _ => false)) 0
      (fun s => if s = lit "中文" then some 4 else none)).1 =
        ⟨[lit "x    1|y  33|w 5\n", lit "中文 2|zz  4|\n"], none⟩ := by
  refine ⟨?_, by decide +kernel⟩
  intro s w h
  dsimp only at h
  split at h
  · rename_i hs
    cases h
    rw [hs]
    decide +kernel
  · cases h

/-- What is needed of the cache: one that holds a wrong width changes what is printed. -/
theorem C69_not_if_unsound :
    ((alignmentLeftP (lit "ab") 4).runCached exampleFlags (fun _ => (fun _ => false, fun _ => false)) 0
      (fun s => if s = lit "ab" then some 4 else none)).1 = lit "ab" ∧
    alignmentLeft exampleFlags (lit "ab") 4 = lit "ab  " := by
  decide +kernel

/-! ## C70 -/

/-- What holds of every state reached. -/
def SharedPInv (f : Flags) (work : Nat → Prog α) (st : SharedP α) : Prop :=
  CacheOk f st.cache ∧ ∀ i, (st.threads i).prog.runPure f = (work i).runPure f

theorem sharedPInv_step {f : Flags} {work : Nat → Prog α} {a b : SharedP α} (h : SharedPInv f work a)
    (hs : SharedP.Step f a b) : SharedPInv f work b := by
  obtain ⟨hc, ht⟩ := h
  cases hs with
  | evict ev => exact ⟨cacheOk_drop hc ev, ht⟩
  | hit i s k hth hw =>
    refine ⟨hc, fun j => ?_⟩
    dsimp only [SharedP.setThread]
    by_cases hj : j = i
    · rw [if_pos hj, hj, ← ht i, hth, cacheOk_hit hc s hw]; rfl
    · rw [if_neg hj]; exact ht j
  | miss i s k hth hw =>
    refine ⟨hc, fun j => ?_⟩
    dsimp only [SharedP.setThread]
    by_cases hj : j = i
    · rw [if_pos hj, hj, ← ht i, hth]
    · rw [if_neg hj]; exact ht j
  | store i s k hth =>
    refine ⟨cacheOk_set hc s, fun j => ?_⟩
    dsimp only [SharedP.setThread]
    by_cases hj : j = i
    · rw [if_pos hj, hj, ← ht i, hth]; rfl
    · rw [if_neg hj]; exact ht j

/-- C70. Any number of goroutines, each running its own program on its own tables, any interleaving of
their cache operations, any evictions: a goroutine that has finished has computed what it would have
computed alone and without a cache; one that has not finished is never stuck. -/
theorem C70_goroutines (f : Flags) (work : Nat → Prog α) (st : SharedP α)
    (h : SharedP.Reaches f (SharedP.start work) st) (i : Nat) :
    (∀ a, (st.threads i).prog = .ret a → a = (work i).runPure f) ∧
    ((∀ a, (st.threads i).prog ≠ .ret a) →
      ∃ st', SharedP.Step f st st' ∧
        ((∃ s k w, (st.threads i).prog = .measure s k ∧ (st'.threads i).prog = k w) ∨
          ((st.threads i).missed = false ∧ (st'.threads i).missed = true))) := by
  have hinv : SharedPInv f work st := by
    induction h with
    | refl => exact ⟨fun k v hk => by simp [SharedP.start] at hk, fun i => rfl⟩
    | step _ hst ih => exact sharedPInv_step ih hst
  constructor
  · intro a ha
    rw [← hinv.2 i, ha]; rfl
  · intro hne
    cases ht : st.threads i with
    | mk prog missed =>
      cases prog with
      | ret a => exact absurd (by rw [ht]) (hne a)
      | measure s k =>
        cases missed with
        | true =>
          exact ⟨_, .store st i s k ht, Or.inl ⟨s, k, visualWidth f s, rfl, by simp [SharedP.setThread]⟩⟩
        | false =>
          by_cases hw : 0 < (st.cache s).getD 0
          · exact ⟨_, .hit st i s k ht hw, Or.inl ⟨s, k, (st.cache s).getD 0, rfl, by simp [SharedP.setThread]⟩⟩
          · exact ⟨_, .miss st i s k ht hw, Or.inr ⟨rfl, by simp [SharedP.setThread]⟩⟩

/-- Two goroutines that align the same text: both miss, then both store, and both have their result. -/
example : ∃ st : SharedP GoString, SharedP.Reaches exampleFlags
      (SharedP.start fun i => if i = 0 then alignmentLeftP (lit "ab") 3 else alignmentRightP (lit "ab") 4) st ∧
    (st.threads 0).prog = .ret (lit "ab ") ∧ (st.threads 1).prog = .ret (lit "  ab") := by
  refine ⟨_, .step (.step (.step (.step (.refl _)
    (.miss _ 0 (lit "ab") _ rfl (by decide +kernel)))
    (.miss _ 1 (lit "ab") _ rfl (by decide +kernel)))
    (.store _ 0 (lit "ab") _ rfl)) (.store _ 1 (lit "ab") _ rfl), ?_, ?_⟩
  · show (if visualWidth exampleFlags (lit "ab") ≥ 3 then Prog.ret (lit "ab")
      else Prog.ret (lit "ab" ++ spaces (3 - visualWidth exampleFlags (lit "ab")).toNat)) = _
    rw [if_neg (by decide +kernel)]
    exact congrArg Prog.ret (by decide +kernel)
  · show (if visualWidth exampleFlags (lit "ab") ≥ 4 then Prog.ret (lit "ab")
      else Prog.ret (spaces (4 - visualWidth exampleFlags (lit "ab")).toNat ++ lit "ab")) = _
    rw [if_neg (by decide +kernel)]
    exact congrArg Prog.ret (by decide +kernel)

/-! ## C71 -/

theorem stale_aux (calls : List (Flags × Evict × Evict × GoString)) :
    ∀ (c : Cache) (old : GoString → UInt16 → Prop), (∀ s w, c s = some w → old s w) →
    ∀ (n : Nat) (w : UInt16), (widthsReturned c calls)[n]? = some w →
      ∃ s, (calls[n]?).map (·.2.2.2) = some s ∧
        (old s w ∨ ∃ m ≤ n, ∃ e, calls[m]? = some e ∧ e.2.2.2 = s ∧ w = visualWidth e.1 s) := by
  induction calls with
  | nil => intro c old _ n w h; simp [widthsReturned] at h
  | cons e calls ih =>
    obtain ⟨f, ev1, ev2, s⟩ := e
    intro c old hc n w h
    have key : (old s (visualWidthCached f ev1 ev2 c s).1 ∨
          (visualWidthCached f ev1 ev2 c s).1 = visualWidth f s) ∧
        ∀ s' w', (visualWidthCached f ev1 ev2 c s).2 s' = some w' →
          old s' w' ∨ (s' = s ∧ w' = visualWidth f s) := by
      unfold visualWidthCached
      dsimp only
      have hd : ∀ s' w', (c.drop ev1) s' = some w' → old s' w' := by
        intro s' w' h'
        unfold Cache.drop at h'
        split at h'
        · cases h'
        · exact hc _ _ h'
      split
      · rename_i hw
        refine ⟨Or.inl ?_, fun s' w' h' => Or.inl (hd _ _ h')⟩
        cases hcs : (c.drop ev1) s with
        | none => rw [hcs] at hw; simp at hw
        | some v => exact hd s v hcs
      · refine ⟨Or.inr rfl, fun s' w' h' => ?_⟩
        change (if ev2 s' = true then none else ((c.drop ev1).set s (visualWidth f s)) s') = some w' at h'
        split at h'
        · cases h'
        · unfold Cache.set at h'
          split at h'
          · rename_i hs; cases h'; exact Or.inr ⟨hs, rfl⟩
          · exact Or.inl (hd _ _ h')
    rw [widthsReturned] at h
    cases n with
    | zero =>
      simp only [List.getElem?_cons_zero, Option.some.injEq] at h
      refine ⟨s, rfl, ?_⟩
      rw [← h]
      rcases key.1 with h1 | h1
      · exact Or.inl h1
      · exact Or.inr ⟨0, Nat.le_refl _, _, rfl, rfl, h1⟩
    | succ n =>
      rw [List.getElem?_cons_succ] at h
      obtain ⟨s', hs', hor⟩ := ih _ (fun s' w' => old s' w' ∨ (s' = s ∧ w' = visualWidth f s)) key.2 n w h
      refine ⟨s', by rw [List.getElem?_cons_succ]; exact hs', ?_⟩
      rcases hor with (h1 | ⟨h1, h2⟩) | ⟨m, hm, e, he, h1, h2⟩
      · exact Or.inl h1
      · subst h1; exact Or.inr ⟨0, Nat.zero_le _, _, rfl, rfl, h2⟩
      · exact Or.inr ⟨m + 1, by omega, e, by rw [List.getElem?_cons_succ]; exact he, h1, h2⟩

/-- C71. When the settings change on the way, the width returned for a text is its width under the
settings of this call or of an earlier call for the same text, whatever is evicted. -/
theorem C71_settings_of_a_call (calls : List (Flags × Evict × Evict × GoString)) (n : Nat)
    (e : Flags × Evict × Evict × GoString) (he : calls[n]? = some e) (w : UInt16)
    (hw : (widthsReturned emptyCache calls)[n]? = some w) :
    ∃ m ≤ n, ∃ e', calls[m]? = some e' ∧ e'.2.2.2 = e.2.2.2 ∧ w = visualWidth e'.1 e.2.2.2 := by
  obtain ⟨s, hs, hor⟩ := stale_aux calls emptyCache (fun _ _ => False)
    (fun s w h => by simp [emptyCache] at h) n w hw
  rw [he] at hs
  cases hs
  rcases hor with h | h
  · exact h.elim
  · exact h

/-- Two settings give a text the same width if they give every character of it the same width. -/
theorem visualWidth_congr (f g : Flags) (s : GoString)
    (h : ∀ r ∈ runes s, runeWidth f (r : Int) = runeWidth g (r : Int)) : visualWidth f s = visualWidth g s := by
  have hc : ∀ c : List Nat, (∀ r ∈ c, runeWidth f (r : Int) = runeWidth g (r : Int)) →
      clusterWidth (fun r => runeWidth f r) c = clusterWidth (fun r => runeWidth g r) c := by
    intro c
    induction c with
    | nil => intro _; rfl
    | cons r c ih =>
      intro hr
      simp only [clusterWidth]
      rw [hr r (List.mem_cons_self ..), ih fun x hx => hr x (List.mem_cons_of_mem _ hx)]
  unfold visualWidth
  rw [stringWidth_eq_sw, stringWidth_eq_sw]
  congr 3
  unfold sw
  congr 1
  refine List.map_congr_left fun c hcm => hc c fun r hr => h r ?_
  rw [← segments_flatten (runes s)]
  exact List.mem_flatten.mpr ⟨c, hcm, hr⟩

/-- C71. A text whose characters have the same width under all settings used is never measured wrongly. -/
theorem C71_never_stale (calls : List (Flags × Evict × Evict × GoString)) (n : Nat)
    (e : Flags × Evict × Evict × GoString) (he : calls[n]? = some e)
    (hs : ∀ e' ∈ calls, ∀ r ∈ runes e.2.2.2, runeWidth e'.1 (r : Int) = runeWidth e.1 (r : Int)) :
    (widthsReturned emptyCache calls)[n]? = some (visualWidth e.1 e.2.2.2) := by
  have hlen : ∀ (l : List (Flags × Evict × Evict × GoString)) c, (widthsReturned c l).length = l.length := by
    intro l
    induction l with
    | nil => intro c; rfl
    | cons e l ih => intro c; obtain ⟨f, ev1, ev2, s⟩ := e; simp [widthsReturned, ih]
  have hn : n < calls.length := by
    rcases Nat.lt_or_ge n calls.length with h | h
    · exact h
    · rw [List.getElem?_eq_none h] at he; cases he
  have hw := List.getElem?_eq_getElem (l := widthsReturned emptyCache calls) (i := n) (by rw [hlen]; exact hn)
  obtain ⟨m, hm, e', he', h1, h2⟩ := C71_settings_of_a_call calls n e he _ hw
  rw [hw, h2, visualWidth_congr e'.1 e.1 e.2.2.2 (hs e' (List.mem_of_getElem? he'))]

theorem kept_aux (calls : List (Flags × GoString)) :
    ∀ (c : Cache) (n : Nat) (e : Flags × GoString), calls[n]? = some e →
    (widthsReturned c (calls.map fun e => (e.1, fun _ => false, fun _ => false, e.2)))[n]? =
      some (if 0 < (c e.2).getD 0 then (c e.2).getD 0 else
        ((((calls.take (n + 1)).filter fun e' => e'.2 = e.2).map fun e' => visualWidth e'.1 e'.2).find?
          (· ≠ 0)).getD 0) := by
  have hd : ∀ c : Cache, c.drop (fun _ => false) = c := fun c => by funext k; simp [Cache.drop]
  induction calls with
  | nil => intro c n e he; simp at he
  | cons a calls ih =>
    obtain ⟨f, s⟩ := a
    intro c n e he
    rw [List.map_cons, widthsReturned]
    simp only [visualWidthCached, hd]
    cases n with
    | zero =>
      simp only [List.getElem?_cons_zero, Option.some.injEq] at he
      subst he
      rw [List.getElem?_cons_zero]
      dsimp only
      split
      · rfl
      · rw [List.take_succ_cons, List.take_zero, List.filter_cons_of_pos (by simp)]
        simp only [List.filter_nil, List.map_cons, List.map_nil]
        by_cases h0 : visualWidth f s = 0
        · rw [List.find?_cons_of_neg (by simp [h0])]; simp [h0]
        · rw [List.find?_cons_of_pos (by simp [h0])]; rfl
    | succ n =>
      rw [List.getElem?_cons_succ] at he ⊢
      have hih := fun c => ih c n e he
      split
      · rename_i hw
        rw [hih]
        dsimp only
        by_cases hes : e.2 = s
        · rw [hes, if_pos hw, if_pos hw]
        · rw [List.take_succ_cons, List.filter_cons_of_neg (by simpa using fun h => hes h.symm)]
      · rename_i hw
        rw [hih]
        dsimp only
        by_cases hes : e.2 = s
        · rw [hes, if_neg hw]
          simp only [Cache.set, if_true, Option.getD_some]
          rw [List.take_succ_cons, List.filter_cons_of_pos (by simp)]
          simp only [List.map_cons]
          by_cases h0 : visualWidth f s = 0
          · rw [List.find?_cons_of_neg (by simp [h0]), if_neg (by rw [h0]; decide)]
          · rw [List.find?_cons_of_pos (by simp [h0]), if_pos (UInt16.pos_iff_ne_zero.mpr h0)]; rfl
        · simp only [Cache.set, if_neg hes]
          rw [List.take_succ_cons, List.filter_cons_of_neg (by simpa using fun h => hes h.symm)]

/-- C71. As long as nothing is evicted, a text keeps the first width other than 0 that was ever
measured for it. -/
theorem C71_kept (calls : List (Flags × GoString)) (n : Nat) (e : Flags × GoString)
    (he : calls[n]? = some e) :
    (widthsReturned emptyCache (calls.map fun e => (e.1, fun _ => false, fun _ => false, e.2)))[n]? =
      some (((((calls.take (n + 1)).filter fun e' => e'.2 = e.2).map fun e' =>
        visualWidth e'.1 e'.2).find? (· ≠ 0)).getD 0) := by
  rw [kept_aux calls emptyCache n e he, if_neg (by simp [emptyCache])]

/-- The section sign is measured 2, the settings change, it is still measured 2; the letter is right
throughout (`C71_never_stale` applies to it). -/
example : widthsReturned emptyCache
      ([(⟨true, true⟩, lit "§"), (⟨false, true⟩, lit "§"), (⟨false, true⟩, lit "a"), (⟨true, true⟩, lit "a")].map
        fun e => (e.1, fun _ => false, fun _ => false, e.2)) = [2, 2, 1, 1] ∧
    visualWidth ⟨false, true⟩ (lit "§") = 1 ∧
    ∀ f g : Flags, ∀ r ∈ runes (lit "a"), runeWidth f (r : Int) = runeWidth g (r : Int) := by
  refine ⟨?_, by decide +kernel, ?_⟩
  · simp only [List.map_cons, List.map_nil, widthsReturned, visualWidthCached, visualWidth, stringWidth,
      runeWidth_eq_plain]
    decide +kernel
  · intro f g r hr
    have : runes (lit "a") = [0x61] := by decide +kernel
    rw [this] at hr
    simp only [List.mem_singleton] at hr
    rw [hr]
    exact (runeWidth_ascii f 0x61 (by omega) (by omega)).trans (runeWidth_ascii g 0x61 (by omega) (by omega)).symm

end GoTable
