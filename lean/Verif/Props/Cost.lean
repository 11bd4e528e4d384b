import Verif.Proofs.Cost
import Verif.Props.Talk
/-!
# What a compact merge costs

How often a compact merge asks for the length and for each item, if the list always gives the same length. The
rows may differ from call to call.
-/

namespace GoTable
open Spec

variable {σ ι ν ε : Type}

theorem inRange_asked {n : Int} {es : List Event} (hl : ∀ m, Event.len m ∈ es → m = n) (m : Int) (hm : m ≤ n)
    (h : InRange m es) : ∀ i ∈ asked es, 0 ≤ i ∧ i < n := by
  induction es generalizing m with
  | nil => intro i hi; cases hi
  | cons x es ih =>
    have hl' : ∀ m, Event.len m ∈ es → m = n := fun m hm => hl m (List.mem_cons_of_mem _ hm)
    cases x with
    | len m' =>
      obtain rfl := hl m' List.mem_cons_self
      exact ih hl' m' (Int.le_refl _) h
    | get j row =>
      intro i hi
      rcases List.mem_cons.mp hi with rfl | hi
      · exact ⟨h.1.1, by have := h.1.2; omega⟩
      · exact ih hl' m hm h.2 i hi
    | write s b => exact ih hl' m hm h

theorem count_replicated (n c : Nat) (x : Int) :
    ((List.range n).flatMap fun i : Nat => List.replicate c (i : Int)).count x = if 0 ≤ x ∧ x < n then c else 0 := by
  induction n with
  | zero => simp
  | succ n ih =>
    rw [List.range_succ, List.flatMap_append, List.count_append, ih]
    simp only [List.flatMap_cons, List.flatMap_nil, List.append_nil, List.count_replicate, beq_iff_eq]
    by_cases h : (n : Int) = x
    · subst h; simp
    · rw [if_neg h]
      have : (0 ≤ x ∧ x < (n : Int)) ↔ (0 ≤ x ∧ x < ((n + 1 : Nat) : Int)) := by omega
      simp [this]

theorem asked_perm {n c : Nat} {es : List Event} (hl : ∀ m, Event.len m ∈ es → m = (n : Int)) (h : InRange 0 es)
    (hc : ∀ i, i < n → (asked es).count (i : Int) = c) :
    (asked es).Perm ((List.range n).flatMap fun i : Nat => List.replicate c (i : Int)) := by
  rw [List.perm_iff_count]
  intro x
  rw [count_replicated]
  split
  · rename_i hx
    obtain ⟨i, rfl⟩ := Int.eq_ofNat_of_zero_le hx.1
    exact hc i (by omega)
  · rename_i hx
    rw [List.count_eq_zero]
    exact fun hm => hx (inRange_asked hl 0 (by omega) h x hm)

theorem returned_pitch {f : Flags} {t : Table σ ι ν ε} {arg : Int} {sep : GoString} {fuel : Nat} {compact : Bool}
    {es : List Event} (h : Talks (mergeRowsHorizontalT f t arg sep compact fuel) es (.returned ()) ∨
      Talks (mergeRowsVerticalT f t arg sep compact fuel) es (.returned ())) : pitch t sep.length % 65536 ≠ 0 := by
  intro hp
  have := (mergeT_zero f t arg sep compact fuel hp h).2
  cases this

theorem follows_returned {s : List (Event × Nat)} {es : List Event} (h : Follows s es (.returned ())) :
    es = s.map Prod.fst := by
  generalize he : Ending.returned () = e at h
  cases h with
  | all => rfl
  | write => cases he
  | short => cases he

/-! ## C98 -/

/-- C98. Row by row: if the list always claims `n > 0` items, a compact merge that returns and found `extra` more groups
asked `extra + 2` times for the length, for each item once for each column in each of `extra + 1` rounds and then once
more, and wrote one line for each of the lines of the listing. -/
theorem C98_horizontal (f : Flags) (t : Table σ ι ν ε) (arg : Int) (sep : GoString) (fuel : Nat) (es : List Event)
    (n : Nat) (hn : 0 < n) (h : Talks (mergeRowsHorizontalT f t arg sep true fuel) es (.returned ()))
    (hl : ∀ m, Event.len m ∈ es → m = (n : Int)) :
    ∃ extra, extra < fuel ∧ (lengths es).length = extra + 2 ∧
      (asked es).Perm ((List.range n).flatMap fun i : Nat =>
        List.replicate ((extra + 1) * t.columns.length + 1) (i : Int)) ∧
      (written es).length = linesFor n (plainGroups (clamped arg) sep.length (pitch t sep.length) + extra) := by
  have hr := C78_in_range f t arg sep true fuel es _ (.inl h)
  have hc := (C77_horizontal f t arg sep fuel es _ (returned_pitch (.inl h))).mp h
  have hg0 : 1 ≤ plainGroups (clamped arg) sep.length (pitch t sep.length) := Nat.le_max_left _ _
  generalize plainGroups (clamped arg) sep.length (pitch t sep.length) = g0 at hc hg0 ⊢
  cases hc with
  | prints s es' _ g w m rows hs hp =>
    obtain ⟨a1, a2, a3, r, a4, a5, a6, a7⟩ := searches_cost (n := n) (fun g i => i % g)
      (fun g i hg _ => Nat.mod_lt i hg) (fun g j i hi hj => count_downH n g j i hi hj) hs g w rfl
      (fun m hm => hl m (List.mem_append_left _ hm))
    obtain rfl := follows_returned hp
    obtain rfl := hl m (List.mem_append_right _ (by simp [script]))
    obtain ⟨b1, b2, b3⟩ := print_cost f t.columns w sep g n hn rows (onLineH n g)
      (by rw [C30_each_once n g (by omega)])
    have hr' : r = g - g0 + 1 := by
      rcases a4 with ⟨_, h⟩ | ⟨h, _⟩
      · exact h
      · cases h
    refine ⟨g - g0, a2, ?_, asked_perm hl hr fun i hi => ?_, ?_⟩
    · rw [eventLengths_append, List.length_append, a6]
      exact congrArg (_ + List.length ·) b2
    · rw [asked_append, List.count_append, a5 i hi, hr']
      exact congrArg (_ + ·) (b1 i hi)
    · rw [written_append, a7, List.nil_append, show g0 + (g - g0) = g by omega]
      exact b3

/-- C98. Column by column, a number of groups that would leave one of them empty ends the search without measuring; no more
groups than items are found. -/
theorem C98_vertical (f : Flags) (t : Table σ ι ν ε) (arg : Int) (sep : GoString) (fuel : Nat) (es : List Event)
    (n : Nat) (hn : 0 < n) (h : Talks (mergeRowsVerticalT f t arg sep true fuel) es (.returned ()))
    (hl : ∀ m, Event.len m ∈ es → m = (n : Int)) :
    ∃ g extra rounds, g = plainGroups (clamped arg) sep.length (pitch t sep.length) + extra ∧ extra < fuel ∧
      (extra = 0 ∨ g ≤ n) ∧ (lengths es).length = extra + 2 ∧
      (rounds = if g * linesFor n (g + 1) < n then extra + 1 else extra) ∧
      (asked es).Perm ((List.range n).flatMap fun i : Nat =>
        List.replicate (rounds * t.columns.length + 1) (i : Int)) ∧
      (written es).length = linesFor n g := by
  have hr := C78_in_range f t arg sep true fuel es _ (.inr h)
  have hc := (C77_vertical f t arg sep fuel es _ (returned_pitch (.inr h))).mp h
  have hg0 : 1 ≤ plainGroups (clamped arg) sep.length (pitch t sep.length) := Nat.le_max_left _ _
  generalize plainGroups (clamped arg) sep.length (pitch t sep.length) = g0 at hc hg0 ⊢
  cases hc with
  | prints s es' _ g w m rows hs hp =>
    obtain ⟨a1, a2, a3, r, a4, a5, a6, a7⟩ := searches_cost (n := n) (fun g i => i / linesFor n g)
      (fun g i hg hi => by
        rw [Nat.div_lt_iff_lt_mul (linesFor_pos n g hn hg), Nat.mul_comm]
        exact Nat.lt_of_lt_of_le hi (linesFor_mul n g hg)) (fun g j i hi hj => count_downV n g j i hi hj) hs g w rfl
      (fun m hm => hl m (List.mem_append_left _ hm))
    have hverdict : ∀ G, verdictV n G = if (G - 1) * linesFor n G < n then .measures else .givesUp := by
      intro G
      rw [verdictV, if_pos (by omega)]
      rfl
    obtain rfl := follows_returned hp
    obtain rfl := hl m (List.mem_append_right _ (by simp [script]))
    obtain ⟨b1, b2, b3⟩ := print_cost f t.columns w sep g n hn rows (onLineV n g (linesFor n g))
      (C31_each_once n g hn (by omega))
    refine ⟨g, g - g0, r, by omega, a2, ?_, ?_, ?_, asked_perm hl hr fun i hi => ?_, ?_⟩
    · by_cases hg : g0 = g
      · exact .inl (by omega)
      · right
        have h1 := (a3 g (by omega) (Nat.le_refl _)).1
        rw [hverdict] at h1
        split at h1
        · rename_i hlt
          have := Nat.mul_le_mul_left (g - 1) (linesFor_pos n g hn (by omega))
          omega
        · cases h1
    · rw [eventLengths_append, List.length_append, a6]
      exact congrArg (_ + List.length ·) b2
    · rw [hverdict, Nat.add_sub_cancel] at a4
      by_cases hlt : g * linesFor n (g + 1) < n
      · rw [if_pos hlt] at a4 ⊢
        rcases a4 with ⟨_, h⟩ | ⟨h, _⟩
        · exact h
        · cases h
      · rw [if_neg hlt] at a4 ⊢
        rcases a4 with ⟨h, _⟩ | ⟨_, h⟩
        · cases h
        · exact h
    · rw [asked_append, List.count_append, a5 i hi]
      exact congrArg (_ + ·) (b1 i hi)
    · rw [written_append, a7, List.nil_append]
      exact b3

/-- C98. With a fixed list, a search row by row that ends tries at most 65536 numbers of groups beyond the number
of items or the number of groups to begin with. -/
theorem C98_bound (f : Flags) (t : Table σ ι ν ε) (items : Items) (arg : Int) (sep : GoString) (fuel : Nat)
    (es : List Event) (h : Talks (mergeRowsHorizontalT f t arg sep true fuel) es (.returned ()))
    (hf : Fixed items (fun _ => false) es) :
    (lengths es).length + plainGroups (clamped arg) sep.length (pitch t sep.length) ≤
      max items.len (plainGroups (clamped arg) sep.length (pitch t sep.length)) + 65537 := by
  have hp := returned_pitch (.inl h)
  have hm := C79_horizontal f t items (fun _ => false) arg sep true fuel es _ h hf
  have hfull : FullRows t items := ((C38_horizontal f t items arg sep true fuel _ hm).2.2.1.mp rfl).2
  obtain ⟨G, hG1, hG2, hG3⟩ := (C37_exact f t items arg sep (fun _ => false) hp hfull).mp ⟨fuel, _, hm⟩
  have hc := (C77_horizontal f t arg sep fuel es _ hp).mp h
  generalize plainGroups (clamped arg) sep.length (pitch t sep.length) = g0 at hc hG1 hG2 ⊢
  cases hc with
  | prints s es' _ g w m rows hs hp =>
    obtain ⟨a1, a2, a3, r, a4, a5, a6, a7⟩ := searches_cost (n := items.len) (fun g i => i % g)
      (fun g i hg _ => Nat.mod_lt i hg) (fun g j i hi hj => count_downH items.len g j i hi hj) hs g w rfl
      (fun m hm => hf.len m (List.mem_append_left _ hm))
    obtain rfl := follows_returned hp
    have hgG : g < G := by
      apply Nat.lt_of_not_le
      intro hle
      obtain ⟨_, ans, w1, c1, c2, c3⟩ := a3 G hG1 hle
      refine hG3 ⟨w1, fun j c hj hc => ?_, c2⟩
      have hin : ∀ k, k < items.len → groupH G k = j → k ∈ downH items.len G j := by
        intro k hk hkj
        have := count_downH items.len G j k hk hj
        rw [if_pos (by rw [← hkj]; rfl)] at this
        exact List.count_pos_iff.mp (by omega)
      have hans : ∀ k, k ∈ downH items.len G j → ans j c k = items.get k := by
        intro k hk
        exact hf.get k _ (List.mem_append_left _ (c3 j c k hj hc hk))
      obtain ⟨d1, d2⟩ := c1 j c hj hc
      refine ⟨fun k x hk hkj hx => ?_, ?_⟩
      · obtain ⟨x', hx', hle⟩ := d1 k (hin k hk hkj)
        rw [hans k (hin k hk hkj), hx] at hx'
        cases hx'
        exact hle
      · rcases d2 with d2 | ⟨k, hk, x, hx, hw⟩
        · exact .inl d2
        · right
          refine ⟨k, x, mem_downH _ _ _ _ hk, ?_, ?_, hw⟩
          · have := count_downH items.len G j k (mem_downH _ _ _ _ hk) hj
            by_cases hkj : j = k % G
            · exact hkj.symm
            · rw [if_neg hkj] at this
              exact absurd hk (List.count_eq_zero.mp this)
          · show (items.get k)[c]? = some x
            rw [← hans k hk]; exact hx
    have hlen : lengths ((script f t.columns w sep g m rows (onLineH m.toNat g)).map Prod.fst) = [m] := by
      simp only [script, List.map_cons, lengths, List.cons.injEq, true_and, List.map_flatMap, List.map_append,
        List.map_map, lengths_flatMap, eventLengths_append, List.map_nil]
      refine List.flatMap_eq_nil_iff.mpr fun i _ => ?_
      rw [List.append_nil]
      exact lengths_gets _ rows
    rw [eventLengths_append, List.length_append, a6, hlen, List.length_singleton]
    omega

/-- Three items with two cells each. -/
def threeItems : Items :=
  ⟨3, fun i => if i = 0 then [lit "x", lit "1"] else if i = 1 then [lit "y", lit "2"] else [lit "zz", lit "1"]⟩

/-- The question for item `i` of `threeItems`, and its answer. -/
def ask (i : Int) : Event := .get i (threeItems.get i)

/- Three items in two columns, one group to begin with: one more is found, so that each item is asked for five times, the
length three times. -/
example :
    let es := [.len 3, ask 0, ask 2, ask 0, ask 2, ask 1, ask 1, .len 3, ask 0, ask 0, ask 1, ask 1, ask 2, ask 2,
      .len 3, ask 0, ask 1, .write (lit "x  1|y 2\n") false, ask 2, .write (lit "zz 1|\n") false]
    Talks (mergeRowsHorizontalT exampleFlags exampleTable 9 (lit "|") true 9) es (.returned ()) ∧
    Fixed threeItems (fun _ => false) es ∧ (lengths es).length = 1 + 2 ∧
    asked es = [0, 2, 0, 2, 1, 1, 0, 0, 1, 1, 2, 2, 0, 1, 2] ∧
    plainGroups (clamped 9) (lit "|").length (pitch exampleTable (lit "|").length) = 1 := by
  refine ⟨retell_talks (by decide +kernel), ⟨?_, ?_, ?_⟩, rfl, rfl, by decide +kernel⟩
  · intro n hn
    simp only [ask, List.mem_cons, Event.len.injEq, reduceCtorEq, false_or, or_false, List.not_mem_nil] at hn
    rcases hn with rfl | rfl | rfl <;> rfl
  · intro i row hi
    simp only [ask, List.mem_cons, Event.get.injEq, reduceCtorEq, false_or, or_false, List.not_mem_nil] at hi
    rcases hi with ⟨rfl, rfl⟩ | ⟨rfl, rfl⟩ | ⟨rfl, rfl⟩ | ⟨rfl, rfl⟩ | ⟨rfl, rfl⟩ | ⟨rfl, rfl⟩ | ⟨rfl, rfl⟩ | ⟨rfl, rfl⟩ |
      ⟨rfl, rfl⟩ | ⟨rfl, rfl⟩ | ⟨rfl, rfl⟩ | ⟨rfl, rfl⟩ | ⟨rfl, rfl⟩ | ⟨rfl, rfl⟩ | ⟨rfl, rfl⟩ <;> rfl
  · intro k failed hk
    simp only [ask, failures] at hk
    match k, hk with
    | 0, hk => cases hk; rfl
    | 1, hk => cases hk; rfl
    | k + 2, hk => simp at hk

/- Column by column, two more are found, in two rounds; the third round does not measure. -/
example :
    let es := [.len 3, ask 0, ask 1, ask 0, ask 1, ask 2, ask 2, .len 3, ask 0, ask 0, ask 1, ask 1, ask 2, ask 2,
      .len 3, .len 3, ask 0, ask 1, ask 2, .write (lit "x 1|y 2|zz 1\n") false]
    Talks (mergeRowsVerticalT exampleFlags exampleTable 12 (lit "|") true 9) es (.returned ()) ∧
    (∀ m, Event.len m ∈ es → m = (3 : Nat)) ∧ (lengths es).length = 2 + 2 ∧ ¬ 3 * linesFor 3 (3 + 1) < 3 ∧
    plainGroups (clamped 12) (lit "|").length (pitch exampleTable (lit "|").length) = 1 := by
  refine ⟨retell_talks (by decide +kernel), ?_, rfl, by decide +kernel, by decide +kernel⟩
  intro n hn
  simp only [ask, List.mem_cons, Event.len.injEq, reduceCtorEq, false_or, or_false, List.not_mem_nil] at hn
  rcases hn with rfl | rfl | rfl | rfl <;> rfl

end GoTable
