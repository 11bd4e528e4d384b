import Verif.Proofs.TalkExact
/-!
# The calls merges make to the caller's list and writer

The list and the writer are user code: each call of `Len`, `Get` or `Write` may answer anything.
`Talks (merge…T …) es e` tells that the merge can make the calls `es`, with the answers recorded there, and
then end with `e`. `fuel` bounds the rounds of the compact search.
-/

namespace GoTable
open Spec

variable {σ ι ν ε : Type} {α : Type}

/-- Leads a conversation with the given answers, as long as the calls are those recorded. -/
def retell : Talk α → List Event → Option (Ending α)
  | .ret a, [] => some (.returned a)
  | .panic p, [] => some (.panicked p)
  | .unfinished, [] => some .unfinished
  | .len k, .len n :: es => retell (k n) es
  | .get i k, .get i' row :: es => if i = i' then retell (k row) es else none
  | .write s k, .write s' b :: es => if s = s' then retell (k b) es else none
  | _, _ => none

theorem retell_talks {p : Talk α} {es : List Event} {e : Ending α} (h : retell p es = some e) : Talks p es e := by
  induction es generalizing p with
  | nil =>
    cases p <;> simp only [retell] at h <;> cases h
    · exact .ret _
    · exact .panic _
    · exact .unfinished
  | cons x es ih =>
    cases p <;> cases x <;> simp only [retell, reduceCtorEq] at h
    · exact .len _ (ih h)
    · split at h
      · rename_i hi; subst hi; exact .get _ _ (ih h)
      · cases h
    · split at h
      · rename_i hi; subst hi; exact .write _ _ (ih h)
      · cases h

/-! ## C76 -/

/-- C76. Without compaction, row by row: one call of `Len`; then for each line one call of `Get` for each item on
it, in order, and one write of that line, made from the rows just given. This goes on to the end, or to the first write
that fails, or to the first row with fewer cells than there are columns. All this can happen, and nothing else. -/
theorem C76_horizontal (f : Flags) (t : Table σ ι ν ε) (arg : Int) (sep : GoString) (fuel : Nat) (es : List Event)
    (e : Ending Unit) (hp : pitch t sep.length % 65536 ≠ 0) :
    Talks (mergeRowsHorizontalT f t arg sep false fuel) es e ↔
    ∃ n rows, Follows (script f t.columns (recorded t) sep
      (plainGroups (clamped arg) sep.length (pitch t sep.length)) n rows
      (onLineH n.toNat (plainGroups (clamped arg) sep.length (pitch t sep.length)))) es e :=
  ⟨mergeHT_plain f t arg sep fuel hp, talks_of_det (fun _ _ => mergeHT_plain f t arg sep fuel hp)
    fun _ _ _ _ h h' => by
      obtain ⟨n, rows, h⟩ := h
      obtain ⟨n', rows', h'⟩ := h'
      exact script_det f t.columns _ _ sep _
        (fun n => onLineH n (plainGroups (clamped arg) sep.length (pitch t sep.length)))
        (fun n i => length_onLineH n _ i) (fun _ _ _ _ => rfl) h h'⟩

/-- C76. The same column by column. -/
theorem C76_vertical (f : Flags) (t : Table σ ι ν ε) (arg : Int) (sep : GoString) (fuel : Nat) (es : List Event)
    (e : Ending Unit) (hp : pitch t sep.length % 65536 ≠ 0) :
    Talks (mergeRowsVerticalT f t arg sep false fuel) es e ↔
    ∃ n rows, Follows (script f t.columns (recorded t) sep
      (plainGroups (clamped arg) sep.length (pitch t sep.length)) n rows
      (onLineV n.toNat (plainGroups (clamped arg) sep.length (pitch t sep.length))
        (linesFor n.toNat (plainGroups (clamped arg) sep.length (pitch t sep.length))))) es e :=
  ⟨mergeVT_plain f t arg sep fuel hp, talks_of_det (fun _ _ => mergeVT_plain f t arg sep fuel hp)
    fun _ _ _ _ h h' => by
      obtain ⟨n, rows, h⟩ := h
      obtain ⟨n', rows', h'⟩ := h'
      exact script_det f t.columns _ _ sep _
        (fun n => onLineV n (plainGroups (clamped arg) sep.length (pitch t sep.length))
        (linesFor n (plainGroups (clamped arg) sep.length (pitch t sep.length))))
        (fun n i => length_onLineV n _ _ i) (fun _ _ _ _ => rfl) h h'⟩

/- Two columns, two groups, three items; the second write fails. The list answers 3, then its rows. -/
example : pitch exampleTable (lit "|").length % 65536 ≠ 0 ∧
    Talks (mergeRowsHorizontalT exampleFlags exampleTable 20 (lit "|") false 0)
      [.len 3, .get 0 [lit "x", lit "1"], .get 1 [lit "y", lit "22"], .write (lit "x     1|y    22\n") false,
        .get 2 [lit "z", lit "3", lit "unused"], .write (lit "z     3|\n") true] (.panicked .write) :=
  ⟨by decide +kernel, retell_talks (by decide +kernel)⟩

/- A list that claims a negative length gets one blank line if that is close enough to zero. -/
example : Talks (mergeRowsVerticalT exampleFlags exampleTable 20 (lit "|") false 0)
      [.len 0, .write (lit "\n") false] (.returned ()) ∧
    Talks (mergeRowsVerticalT exampleFlags exampleTable 20 (lit "|") false 0) [.len (-1)] (.returned ()) ∧
    Talks (mergeRowsVerticalT exampleFlags exampleTable 20 (lit "|") false 0)
      [.len 3, .get 0 [lit "x", lit "1"], .get 2 [lit "z"]] (.panicked .index) :=
  ⟨retell_talks (by decide +kernel), retell_talks (by decide +kernel), retell_talks (by decide +kernel)⟩

/-! ## C77 -/

/-- C77. With compaction, row by row: first the search, then the printing with the number of groups and the widths
the search ended with. Each round of the search asks for the length and, group by group and column by column, for
all items of the group. All this can happen, and nothing else. -/
theorem C77_horizontal (f : Flags) (t : Table σ ι ν ε) (arg : Int) (sep : GoString) (fuel : Nat) (es : List Event)
    (e : Ending Unit) (hp : pitch t sep.length % 65536 ≠ 0) :
    Talks (mergeRowsHorizontalT f t arg sep true fuel) es e ↔
    Conversation f t sep onLineH (Searches (visualWidth f) t.columns.length sep.length (clamped arg) verdictH downH
      fuel (plainGroups (clamped arg) sep.length (pitch t sep.length)) (recorded t)) es e :=
  ⟨mergeHT_compact f t arg sep fuel hp, talks_of_det (fun _ _ => mergeHT_compact f t arg sep fuel hp)
    fun _ _ _ _ => conversation_det length_onLineH fun _ _ _ _ => searches_det fun _ _ _ _ => rfl⟩

/-- C77. Column by column a round may also be given up, or panic if the length is negative. -/
theorem C77_vertical (f : Flags) (t : Table σ ι ν ε) (arg : Int) (sep : GoString) (fuel : Nat) (es : List Event)
    (e : Ending Unit) (hp : pitch t sep.length % 65536 ≠ 0) :
    Talks (mergeRowsVerticalT f t arg sep true fuel) es e ↔
    Conversation f t sep (fun n g => onLineV n g (linesFor n g))
      (Searches (visualWidth f) t.columns.length sep.length (clamped arg) verdictV downV
        fuel (plainGroups (clamped arg) sep.length (pitch t sep.length)) (recorded t)) es e :=
  ⟨mergeVT_compact f t arg sep fuel hp, talks_of_det (fun _ _ => mergeVT_compact f t arg sep fuel hp)
    fun _ _ _ _ => conversation_det (fun n g i => length_onLineV n g _ i) fun _ _ _ _ => searches_det fun _ _ _ _ => rfl⟩

/- The list shrinks while it is measured: three items, then one; it is printed with two, in the widths found with
three. -/
example : Talks (mergeRowsHorizontalT exampleFlags exampleTable 9 (lit "|") true 9)
    [.len 3, .get 0 [lit "x", lit "1"], .get 2 [lit "zz", lit "1"], .get 0 [lit "x", lit "1"], .get 2 [lit "zz", lit "1"],
      .get 1 [lit "y", lit "2"], .get 1 [lit "y", lit "22"],
      .len 1, .get 0 [lit "abcd", lit ""], .get 0 [lit "", lit "1"],
      .len 2, .get 0 [lit "p", lit "1"], .get 1 [lit "q", lit "3"], .write (lit "p  1|q  3\n") false] (.returned ()) :=
  retell_talks (by decide +kernel)

/- A list that says it has two items less than none crashes the search column by column, and only there; one that
grows with every question keeps it going. -/
example : Talks (mergeRowsVerticalT exampleFlags exampleTable 9 (lit "|") true 9) [.len (-2)]
      (.panicked .divideByZero) ∧
    Talks (mergeRowsVerticalT exampleFlags exampleTable 9 (lit "|") true 9)
      [.len 2, .get 0 [[], []], .get 0 [[], []], .get 1 [[], []], .get 1 [[], [], []],
        .len 3, .get 0 [[], []], .get 0 [[], []], .get 1 [[], []], .get 1 [[], []], .get 2 [[]], .get 2 [[]]]
      (.panicked .index) ∧
    Talks (mergeRowsVerticalT exampleFlags exampleTable 9 (lit "|") true 2)
      [.len 2, .get 0 [[], []], .get 0 [[], []], .get 1 [[], []], .get 1 [[], []],
        .len 3, .get 0 [[], []], .get 0 [[], []], .get 1 [[], []], .get 1 [[], []], .get 2 [[], []], .get 2 [[], []]]
      .unfinished :=
  ⟨retell_talks (by decide +kernel), retell_talks (by decide +kernel), retell_talks (by decide +kernel)⟩

/-! ## C78 -/

/-- C78. Whatever list and writer answer, every item a merge asks for is within the length the list gave last. -/
theorem C78_in_range (f : Flags) (t : Table σ ι ν ε) (arg : Int) (sep : GoString) (compact : Bool) (fuel : Nat)
    (es : List Event) (e : Ending Unit)
    (h : Talks (mergeRowsHorizontalT f t arg sep compact fuel) es e ∨
      Talks (mergeRowsVerticalT f t arg sep compact fuel) es e) : InRange 0 es := by
  by_cases hp : pitch t sep.length % 65536 = 0
  · rw [(mergeT_zero f t arg sep compact fuel hp h).1]
    trivial
  · cases compact with
    | false =>
      rcases h with h | h
      · obtain ⟨n, rows, h⟩ := (C76_horizontal f t arg sep fuel es e hp).mp h
        exact inRange_follows h (mem_script _ _ _ _ _ _ _ _ fun i k hk => mem_onLineH _ _ i k hk)
      · obtain ⟨n, rows, h⟩ := (C76_vertical f t arg sep fuel es e hp).mp h
        exact inRange_follows h (mem_script _ _ _ _ _ _ _ _ fun i k hk => mem_onLineV _ _ _ i k hk)
    | true =>
      rcases h with h | h
      · exact inRange_conversation mem_onLineH (fun s e hs b hb m => inRange_searches mem_downH hs b hb m)
          ((C77_horizontal f t arg sep fuel es e hp).mp h) 0
      · exact inRange_conversation (fun n g i k hk => mem_onLineV n g _ i k hk)
          (fun s e hs b hb m => inRange_searches mem_downV hs b hb m)
          ((C77_vertical f t arg sep fuel es e hp).mp h) 0

/-- C78. If the width of one item is 0 modulo 2^16, a merge panics before any call. -/
theorem C78_zero (f : Flags) (t : Table σ ι ν ε) (arg : Int) (sep : GoString) (compact : Bool) (fuel : Nat)
    (es : List Event) (e : Ending Unit) (hp : pitch t sep.length % 65536 = 0)
    (h : Talks (mergeRowsHorizontalT f t arg sep compact fuel) es e ∨
      Talks (mergeRowsVerticalT f t arg sep compact fuel) es e) : es = [] ∧ e = .panicked .divideByZero :=
  mergeT_zero f t arg sep compact fuel hp h

example : Talks (mergeRowsHorizontalT exampleFlags { exampleTable with columnWidth := fun _ => 0 } 20 [] true 3) []
      (.panicked .divideByZero) ∧
    pitch { exampleTable with columnWidth := fun _ => 0 } ([] : GoString).length % 65536 = 0 ∧
    InRange 0 [.len 2, .get 1 [], .len 1, .get 0 []] ∧ ¬ InRange 0 [.len 2, .get 1 [], .len 1, .get 1 []] := by
  refine ⟨retell_talks (by decide +kernel), by decide +kernel, ?_, ?_⟩ <;> simp [InRange]

/-! ## C79 -/

/-- How a merge ended, as an outcome with a fixed list. -/
def outcome (es : List Event) : Ending Unit → Option MergeRun
  | .returned _ => some ⟨written es, none⟩
  | .panicked p => some ⟨written es, some p⟩
  | .unfinished => none

theorem outcome_of {es : List Event} {e : Ending Unit} {run : MergeRun}
    (h : (written es, e) = (run.written, runEnd run.panic)) : outcome es e = some run := by
  obtain ⟨ws, p⟩ := run
  cases p <;> simp only [runEnd, Prod.mk.injEq] at h <;> obtain ⟨h1, rfl⟩ := h <;> simp [outcome, h1]

/-- C79. If the list always gives the same answers, a merge row by row writes and ends as described for fixed
lists, with the same number of rounds. -/
theorem C79_horizontal (f : Flags) (t : Table σ ι ν ε) (items : Items) (fails : Nat → Bool) (arg : Int) (sep : GoString)
    (compact : Bool) (fuel : Nat) (es : List Event) (e : Ending Unit)
    (h : Talks (mergeRowsHorizontalT f t arg sep compact fuel) es e) (hf : Fixed items fails es) :
    mergeRowsHorizontal f t items arg sep compact fails fuel = outcome es e := by
  have h1 := runWith_talks h hf.len hf.get 0 (fun j failed hj => by rw [Nat.zero_add]; exact hf.write j failed hj)
  rw [same_mergeH] at h1
  cases hm : mergeRowsHorizontal f t items arg sep compact fails fuel with
  | none =>
    rw [hm] at h1
    cases e <;> simp at h1 ⊢
    rfl
  | some run =>
    rw [hm] at h1
    exact (outcome_of h1.symm).symm

/-- C79. The same column by column; there the search ends within as many rounds as there are items, and one more. -/
theorem C79_vertical (f : Flags) (t : Table σ ι ν ε) (items : Items) (fails : Nat → Bool) (arg : Int) (sep : GoString)
    (compact : Bool) (fuel : Nat) (es : List Event) (e : Ending Unit)
    (h : Talks (mergeRowsVerticalT f t arg sep compact fuel) es e) (hf : Fixed items fails es) :
    (e = .unfinished ∧ fuel ≤ items.len) ∨
    some (mergeRowsVertical f t items arg sep compact fails) = outcome es e := by
  have h1 := runWith_talks h hf.len hf.get 0 (fun j failed hj => by rw [Nat.zero_add]; exact hf.write j failed hj)
  rcases same_mergeV f t items arg sep compact fails fuel with ⟨h2, h3⟩ | h2
  · rw [h2] at h1
    left
    exact ⟨(Prod.mk.inj h1).2.symm, h3⟩
  · rw [h2] at h1
    exact .inr (outcome_of h1.symm).symm

/-- C79. There is such a conversation with every fixed list and every writer. -/
theorem C79_exists (p : Talk α) (items : Items) (fails : Nat → Bool) : ∃ es e, Talks p es e ∧ Fixed items fails es :=
  talks_exists p items fails

example : ∃ es e, Talks (mergeRowsVerticalT exampleFlags exampleTable 21 (lit "|") true 9) es e ∧
    Fixed exampleItems (fun k => k = 1) es ∧ outcome es e =
      some ⟨[lit "x    1|y  33|w 5\n", lit "中文 2|zz  4|\n"], some .write⟩ := by
  obtain ⟨es, e, h1, h2⟩ := C79_exists (mergeRowsVerticalT exampleFlags exampleTable 21 (lit "|") true 9)
    exampleItems (fun k => k = 1)
  refine ⟨es, e, h1, h2, ?_⟩
  rcases C79_vertical _ _ _ _ _ _ _ _ _ _ h1 h2 with ⟨_, h3⟩ | h3
  · exact absurd h3 (by decide)
  · rw [← h3]
    decide +kernel

end GoTable
