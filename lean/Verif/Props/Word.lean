import Verif.Proofs.Word
import Verif.Props.Talk
/-!
# Merges with integers of the machine

`Talks (merge…W …) es e` tells that the merge, with Go's `int` as a number of `w` bits, can make the calls `es` with the
answers recorded there and then end with `e`. On the platforms there are `w` is 32 or 64.
-/

namespace GoTable
open Spec

variable {σ ι ν ε : Type} {α : Type} {w : Nat}

/-! ## C92 -/

private theorem twice_lt {n : Nat} (hw : 32 ≤ w) (h : n < 2 ^ (w - 3)) : 2 * n < quarter w := by
  rw [quarter, show w - 2 = w - 3 + 1 by omega, Nat.pow_succ]
  omega

private theorem moderate_of {n : Int} (h : -2 ^ (w - 2) ≤ n ∧ n ≤ 2 ^ (w - 2)) : Moderate w n := by
  simpa [Moderate, quarter] using h

/-- C92. As long as the lengths the list gives are between -2^(w-2) and 2^(w-2), nothing overflows row by row: the
calls and the end are those with unbounded integers. -/
theorem C92_horizontal (f : Flags) (t : Table σ ι ν ε) (arg : GoInt w) (sep : GoString) (compact : Bool) (fuel : Nat)
    (es : List Event) (e : Ending Unit) (hw : 32 ≤ w) (h1 : fuel < 2 ^ (w - 3))
    (h2 : (65535 + fuel) * t.columns.length < 2 ^ (w - 1))
    (hlen : ∀ n, Event.len n ∈ es → -2 ^ (w - 2) ≤ n ∧ n ≤ 2 ^ (w - 2)) :
    Talks (mergeRowsHorizontalW f t arg sep compact fuel) es e ↔
      Talks (mergeRowsHorizontalT f t arg.toInt sep compact fuel) es e :=
  haveI : Wide w := ⟨hw⟩
  (mergeHW_agree f t arg sep compact fuel (twice_lt hw h1) (Nat.lt_of_lt_of_eq h2 two_quarter)).talks
    (fun n h => moderate_of (hlen n h)) e

/-- C92. The same column by column. -/
theorem C92_vertical (f : Flags) (t : Table σ ι ν ε) (arg : GoInt w) (sep : GoString) (compact : Bool) (fuel : Nat)
    (es : List Event) (e : Ending Unit) (hw : 32 ≤ w) (h1 : fuel < 2 ^ (w - 3))
    (h2 : (65535 + fuel) * t.columns.length < 2 ^ (w - 1))
    (hlen : ∀ n, Event.len n ∈ es → -2 ^ (w - 2) ≤ n ∧ n ≤ 2 ^ (w - 2)) :
    Talks (mergeRowsVerticalW f t arg sep compact fuel) es e ↔
      Talks (mergeRowsVerticalT f t arg.toInt sep compact fuel) es e :=
  haveI : Wide w := ⟨hw⟩
  (mergeVW_agree f t arg sep compact fuel (twice_lt hw h1) (Nat.lt_of_lt_of_eq h2 two_quarter)).talks
    (fun n h => moderate_of (hlen n h)) e

/-- C92. With a list of at most 2^(w-2) items that always gives the same answers, a merge row by row with integers
of the machine writes and ends as described for fixed lists. -/
theorem C92_fixed_horizontal (f : Flags) (t : Table σ ι ν ε) (items : Items) (fails : Nat → Bool) (arg : GoInt w)
    (sep : GoString) (compact : Bool) (fuel : Nat) (es : List Event) (e : Ending Unit) (hw : 32 ≤ w)
    (h1 : fuel < 2 ^ (w - 3)) (h2 : (65535 + fuel) * t.columns.length < 2 ^ (w - 1)) (hn : items.len ≤ 2 ^ (w - 2)) (hf : Fixed items fails es)
    (h : Talks (mergeRowsHorizontalW f t arg sep compact fuel) es e) :
    mergeRowsHorizontal f t items arg.toInt sep compact fails fuel = outcome es e :=
  C79_horizontal f t items fails arg.toInt sep compact fuel es e
    ((C92_horizontal f t arg sep compact fuel es e hw h1 h2 fun n hm => by
      have h0 : ((2 ^ (w - 2) : Nat) : Int) = 2 ^ (w - 2) := by simp
      have := hf.len n hm; rw [← h0]; omega).1 h) hf

/-- C92. The same column by column. -/
theorem C92_fixed_vertical (f : Flags) (t : Table σ ι ν ε) (items : Items) (fails : Nat → Bool) (arg : GoInt w)
    (sep : GoString) (compact : Bool) (fuel : Nat) (es : List Event) (e : Ending Unit) (hw : 32 ≤ w)
    (h1 : fuel < 2 ^ (w - 3)) (h2 : (65535 + fuel) * t.columns.length < 2 ^ (w - 1)) (hn : items.len < fuel) (hf : Fixed items fails es)
    (h : Talks (mergeRowsVerticalW f t arg sep compact fuel) es e) :
    some (mergeRowsVertical f t items arg.toInt sep compact fails) = outcome es e := by
  have := C79_vertical f t items fails arg.toInt sep compact fuel es e
    ((C92_vertical f t arg sep compact fuel es e hw h1 h2 fun n hm => by
      have h0 : ((2 ^ (w - 2) : Nat) : Int) = 2 ^ (w - 2) := by simp
      have h3 := twice_lt hw h1
      rw [quarter] at h3
      have := hf.len n hm; rw [← h0]; omega).1 h) hf
  rcases this with ⟨_, h3⟩ | h3
  · omega
  · exact h3

/- The list claims 2^62 items and gives three of them; the compact search gives up at the fourth. -/
example : (∀ n, Event.len n ∈ [Event.len (2 ^ 62), .get 0 [lit "x", lit "1"], .get 2 [lit "zz", lit "1"], .get 4 [[], []],
      .get 6 []] → -2 ^ 62 ≤ n ∧ n ≤ 2 ^ 62) ∧
    (65535 + 9) * exampleTable.columns.length < 2 ^ 63 ∧
    Talks (mergeRowsHorizontalW exampleFlags exampleTable (9 : GoInt 64) (lit "|") true 9)
      [.len (2 ^ 62), .get 0 [lit "x", lit "1"], .get 2 [lit "zz", lit "1"], .get 4 [[], []], .get 6 []]
      (.panicked .index) :=
  ⟨by simp, by decide, retell_talks (by decide +kernel)⟩

/- A list that shrinks while it is measured, with 64-bit integers. -/
example : Talks (mergeRowsHorizontalW exampleFlags exampleTable (9 : GoInt 64) (lit "|") true 9)
    [.len 3, .get 0 [lit "x", lit "1"], .get 2 [lit "zz", lit "1"], .get 0 [lit "x", lit "1"], .get 2 [lit "zz", lit "1"],
      .get 1 [lit "y", lit "2"], .get 1 [lit "y", lit "22"],
      .len 1, .get 0 [lit "abcd", lit ""], .get 0 [lit "", lit "1"],
      .len 2, .get 0 [lit "p", lit "1"], .get 1 [lit "q", lit "3"], .write (lit "p  1|q  3\n") false] (.returned ()) :=
  retell_talks (by decide +kernel)

example : ∃ es e, Talks (mergeRowsVerticalW exampleFlags exampleTable (21 : GoInt 32) (lit "|") true 9) es e ∧
    Fixed exampleItems (fun k => k = 1) es ∧ outcome es e =
      some ⟨[lit "x    1|y  33|w 5\n", lit "中文 2|zz  4|\n"], some .write⟩ := by
  obtain ⟨es, e, h1, h2⟩ := C79_exists (mergeRowsVerticalW exampleFlags exampleTable (21 : GoInt 32) (lit "|") true 9)
    exampleItems (fun k => k = 1)
  refine ⟨es, e, h1, h2, ?_⟩
  rw [← C92_fixed_vertical _ _ _ _ _ _ _ _ _ _ (by decide) (by decide) (by decide) (by decide) h2 h1]
  decide +kernel

/- The same on a 32-bit platform, with 2^30 items. -/
example : (∀ n, Event.len n ∈ [Event.len (2 ^ 30), .get 0 [lit "x", lit "1"], .get 2 [lit "zz", lit "1"], .get 4 [[], []],
      .get 6 []] → -2 ^ (32 - 2) ≤ n ∧ n ≤ 2 ^ (32 - 2)) ∧
    9 < 2 ^ (32 - 3) ∧ (65535 + 9) * exampleTable.columns.length < 2 ^ (32 - 1) ∧
    Talks (mergeRowsHorizontalW exampleFlags exampleTable (9 : GoInt 32) (lit "|") true 9)
      [.len (2 ^ 30), .get 0 [lit "x", lit "1"], .get 2 [lit "zz", lit "1"], .get 4 [[], []], .get 6 []]
      (.panicked .index) :=
  ⟨by simp, by decide, by decide, retell_talks (by decide +kernel)⟩

/-- C92. Some limit is needed: a list that claims the smallest length there is gets blank lines until a write fails,
where nothing is written with unbounded integers. -/
theorem C92_smallest_length :
    (Talks (mergeRowsHorizontalW exampleFlags exampleTable (20 : GoInt 64) (lit "|") false 0)
      [.len (-2 ^ 63), .write (lit "\n") false, .write (lit "\n") false, .write (lit "\n") true] (.panicked .write) ∧
    Talks (mergeRowsHorizontalT exampleFlags exampleTable 20 (lit "|") false 0) [.len (-2 ^ 63)] (.returned ()) ∧
    Talks (mergeRowsVerticalW exampleFlags exampleTable (20 : GoInt 64) (lit "|") false 0)
      [.len (-2 ^ 63), .write (lit "\n") false, .write (lit "\n") true] (.panicked .write)) ∧
    Talks (mergeRowsHorizontalW exampleFlags exampleTable (20 : GoInt 32) (lit "|") false 0)
      [.len (-2 ^ 31), .write (lit "\n") false, .write (lit "\n") false, .write (lit "\n") true] (.panicked .write) ∧
    Talks (mergeRowsHorizontalT exampleFlags exampleTable 20 (lit "|") false 0) [.len (-2 ^ 31)] (.returned ()) ∧
    Talks (mergeRowsVerticalW exampleFlags exampleTable (20 : GoInt 32) (lit "|") false 0)
      [.len (-2 ^ 31), .write (lit "\n") false, .write (lit "\n") true] (.panicked .write) :=
  ⟨⟨retell_talks (by decide +kernel), retell_talks (by decide +kernel), retell_talks (by decide +kernel)⟩,
    retell_talks (by decide +kernel), retell_talks (by decide +kernel), retell_talks (by decide +kernel)⟩

/- With the greatest length the search row by row goes on with negative items after the last one. -/
example : Talks (maxCellWidthW exampleFlags 0 (GoInt.ofInt (2 ^ 63 - 1) : GoInt 64) 2 (rounds 64) (GoInt.ofInt (2 ^ 63 - 4)) 0)
    [.get (2 ^ 63 - 4) [[]], .get (2 ^ 63 - 2) [[]], .get (-2 ^ 63) [[]], .get (-2 ^ 63 + 2) []] (.panicked .index) :=
  retell_talks (by decide +kernel)

end GoTable
