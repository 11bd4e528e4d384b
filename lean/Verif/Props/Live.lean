import Verif.Props.Merge
import Verif.Props.Reenter
import Verif.Props.Talk
import Verif.Proofs.LiveEnds
/-!
# Merges with lists, writers and alignments that use the table

As in `Props/Reenter.lean`, `Chats p es e o'` tells that the method `p` can make the calls `es` of user code, with
the replies and the effects recorded there, and then end with `e`, leaving the objects `o'`. For merges, user code
is the list, the writer and the alignments. Replies and effects are arbitrary.
-/

namespace GoTable
open Spec

variable {ι ν ε α : Type}

/-! ## C85 -/

/-- C85. The calls `MergeRowsHorizontal` makes, whatever its list, its writer and the alignments do. There are no other
runs, and all of these are possible. -/
theorem C85_horizontal (t : Nat) (arg : Int) (sep : GoString) (compact : Bool) (fuel : Nat) (o : Objects)
    (es : List (CallEvent ι ν ε)) (e : Outcome Unit) (o' : Objects) :
    Chats (mergeRowsHorizontalL t arg sep compact fuel o) es e o' ↔
      Merges t arg sep verdictH downH onLineH compact fuel o es e o' := by
  rw [← runOf_mergeH]
  rfl

/-- C85. The same for `MergeRowsVertical`. -/
theorem C85_vertical (t : Nat) (arg : Int) (sep : GoString) (compact : Bool) (fuel : Nat) (o : Objects)
    (es : List (CallEvent ι ν ε)) (e : Outcome Unit) (o' : Objects) :
    Chats (mergeRowsVerticalL t arg sep compact fuel o) es e o' ↔
      Merges t arg sep verdictV downV (fun n g i => onLineV n g (linesFor n g) i) compact fuel o es e o' := by
  rw [← runOf_mergeV]
  rfl

/-- C85. With given user code there is exactly one run of each. -/
theorem C85_ends (u : UserCode ι ν ε) (past : List (CallEvent ι ν ε)) (t : Nat) (arg : Int) (sep : GoString)
    (compact : Bool) (fuel : Nat) (o : Objects) :
    (∃ r : List (CallEvent ι ν ε) × Outcome Unit × Objects, ∀ es e o',
      Chats (mergeRowsHorizontalL t arg sep compact fuel o) es e o' ∧ Told u past es ↔ (es, e, o') = r) ∧
    (∃ r : List (CallEvent ι ν ε) × Outcome Unit × Objects, ∀ es e o',
      Chats (mergeRowsVerticalL t arg sep compact fuel o) es e o' ∧ Told u past es ↔ (es, e, o') = r) :=
  ⟨⟨_, playOut_iff u past _⟩, ⟨_, playOut_iff u past _⟩⟩

/- Columns "a" and "b", the second with an alignment; row `i` is in array `i`. -/
def liveObjects : Objects where
  spec := fun _ => some 0
  columns := fun _ => ⟨0, 0, 2⟩
  element := fun _ i => if i < 2 then some i else none
  column := fun c =>
    ⟨some c, if c = 1 then some 1 else none, if c = 0 then lit "a" else if c = 1 then lit "b" else lit "c"⟩
  strings := fun a i => if i = 0 then List.replicate (a + 1) 0x78 else if i = 1 then lit "1" else []
  widthMap := fun t => some t
  answer := fun _ s => visualWidth ⟨false, true⟩ s
  recorded := fun _ name => if name = lit "a" then 2 else if name = lit "b" then 3 else 0

/- Five rows. The alignment fills up with dots, and at the third row it widens "a" to 4. -/
def wideningUser : UserCode Unit Nat Unit where
  value := fun _ _ _ o => (.panicked, o)
  format := fun _ _ _ _ o => (.panicked, o)
  valueString := fun _ _ _ _ o => (.panicked, o)
  align := fun past _ text w o => (some (List.replicate (w.toNat - text.length) 0x2E ++ text),
    if (past.filterMap itemOf).length = 3 then noted (some 0) (lit "a") 4 o else o)
  len := fun _ o => (some 5, o)
  get := fun _ i o => (some ⟨i.toNat, 0, 2⟩, o)

/- A writer that adds a third column after the first line. -/
def addingUser : UserCode Unit Nat Unit :=
  { wideningUser with
    get := fun _ i o => (some ⟨i.toNat, 0, 3⟩, o)
    write := fun _ _ o => (some false, { o with
      columns := fun _ => ⟨1, 0, 3⟩
      element := fun _ i => if i < 3 then some i else none }) }

/- A writer that removes the second column after the first line. -/
def removingUser : UserCode Unit Nat Unit :=
  { wideningUser with write := fun _ _ o => (some false, { o with columns := fun _ => ⟨0, 0, 1⟩ }) }

/- The third line is set with the width recorded by then. -/
example : ∃ (es : List (CallEvent Unit Nat Unit)) (o' : Objects),
    Chats (mergeRowsVerticalL 0 20 (lit " | ") false 9 liveObjects) es (.returned ()) o' ∧
    es.filterMap itemOf = [0, 3, 1, 4, 2] ∧
    es.filterMap sentOf = [lit "x  ..1 | xxxx ..1\n", lit "xx ..1 | xxxxx ..1\n", lit "xxx  ..1 | \n"] := by
  have h := playOut_chats wideningUser [] (mergeRowsVerticalL 0 20 (lit " | ") false 9 liveObjects)
  have he : (playOut wideningUser [] (mergeRowsVerticalL 0 20 (lit " | ") false 9 liveObjects)).2.1 =
    .returned () := by decide +kernel
  rw [he] at h
  exact ⟨_, _, h, by decide +kernel, by decide +kernel⟩

/- A search that finds three groups. -/
example : ∃ (es : List (CallEvent Unit Nat Unit)) (o' : Objects),
    Chats (mergeRowsVerticalL 0 24 (lit " | ") true 9 liveObjects) es (.returned ()) o' ∧
    es.filterMap itemOf = [0, 1, 0, 1, 2, 3, 2, 3, 4, 4, 0, 2, 4, 1, 3] ∧
    es.filterMap sentOf = [lit "x  1 | xxx  1 | xxxxx 1\n", lit "xx 1 | xxxx 1 | \n"] := by
  have h := playOut_chats wideningUser [] (mergeRowsVerticalL 0 24 (lit " | ") true 9 liveObjects)
  have he : (playOut wideningUser [] (mergeRowsVerticalL 0 24 (lit " | ") true 9 liveObjects)).2.1 =
    .returned () := by decide +kernel
  rw [he] at h
  exact ⟨_, _, h, by decide +kernel, by decide +kernel⟩

/- A column added by the writer: the next line is not written. -/
example : ∃ (es : List (CallEvent Unit Nat Unit)) (o' : Objects),
    Chats (mergeRowsHorizontalL 0 20 (lit " | ") false 9 liveObjects) es (.panicked (.run .index)) o' ∧
    es.filterMap itemOf = [0, 1, 2] ∧ es.filterMap sentOf = [lit "x  ..1 | xx ..1\n"] := by
  have h := playOut_chats addingUser [] (mergeRowsHorizontalL 0 20 (lit " | ") false 9 liveObjects)
  have he : (playOut addingUser [] (mergeRowsHorizontalL 0 20 (lit " | ") false 9 liveObjects)).2.1 =
    .panicked (.run .index) := by decide +kernel
  rw [he] at h
  exact ⟨_, _, h, by decide +kernel, by decide +kernel⟩

/- A column removed by the writer: its cells are empty, without the width on record. -/
example : ∃ (es : List (CallEvent Unit Nat Unit)) (o' : Objects),
    Chats (mergeRowsHorizontalL 0 20 (lit " | ") false 9 liveObjects) es (.returned ()) o' ∧
    es.filterMap sentOf = [lit "x  ..1 | xx ..1\n", lit "xxx  | xxxx \n", lit "xxxxx  | \n"] := by
  have h := playOut_chats removingUser [] (mergeRowsHorizontalL 0 20 (lit " | ") false 9 liveObjects)
  have he : (playOut removingUser [] (mergeRowsHorizontalL 0 20 (lit " | ") false 9 liveObjects)).2.1 =
    .returned () := by decide +kernel
  rw [he] at h
  exact ⟨_, _, h, by decide +kernel⟩

/-! ## C86 -/

/-- C86. Merges change nothing in memory themselves. Each call of user code finds the objects as the one before left
them, the first one as they were when the merge was called; and so they are in the end. -/
theorem C86_chained (t : Nat) (arg : Int) (sep : GoString) (compact : Bool) (fuel : Nat) (o : Objects)
    (es : List (CallEvent ι ν ε)) (e : Outcome Unit) (o' : Objects)
    (h : Chats (mergeRowsHorizontalL t arg sep compact fuel o) es e o' ∨
      Chats (mergeRowsVerticalL t arg sep compact fuel o) es e o') : Chained o es o' :=
  h.elim chained_mergeH chained_mergeV

/- The objects change in between, as the third call of the alignment shows. -/
example : ∃ (es : List (CallEvent Unit Nat Unit)) (e : _) (o' : Objects),
    Chats (mergeRowsVerticalL 0 20 (lit " | ") false 9 liveObjects) es e o' ∧
    (liveObjects.widths 0).map (fun m => m (lit "a")) = some 2 ∧
    (o'.widths 0).map (fun m => m (lit "a")) = some 4 ∧
    es.map (fun ev => (ev.before.widths 0).map fun m => m (lit "a")) =
      List.replicate 8 (some 2) ++ List.replicate 6 (some 4) :=
  ⟨_, _, _, playOut_chats wideningUser [] _, by decide +kernel, by decide +kernel, by decide +kernel⟩

/-! ## C87 -/

/-- C87. If list, writer and alignments leave the table, its rows and the settings alone, a merge by rows is a
conversation of the merge of the table as a value (`C76` to `C79`). -/
theorem C87_horizontal {σ : Type} (G : Nat → Getter σ ι ν ε) (A : Nat → Alignment) (f : Flags) (t : Nat) (cols : List Nat)
    (arg : Int) (sep : GoString) (compact : Bool) (fuel : Nat) (o : Objects) (es : List (CallEvent ι ν ε))
    (e : Outcome Unit) (o' : Objects) (ht : HasColumns o t cols) (hm : MeasuresBy f o)
    (h : Chats (mergeRowsHorizontalL t arg sep compact fuel o) es e o') (hq : LeavesAlone A es) :
    o' = o ∧ ∃ e', Talks (mergeRowsHorizontalT f (tableSeen G A o t cols) arg sep compact fuel) (heard o es) e' ∧
      e = outcomeOf e' :=
  talks_alone (lsim_mergeH ht arg sep compact fuel) (chained_mergeH h) hm h hq

/-- C87. The same for a merge by columns. -/
theorem C87_vertical {σ : Type} (G : Nat → Getter σ ι ν ε) (A : Nat → Alignment) (f : Flags) (t : Nat) (cols : List Nat)
    (arg : Int) (sep : GoString) (compact : Bool) (fuel : Nat) (o : Objects) (es : List (CallEvent ι ν ε))
    (e : Outcome Unit) (o' : Objects) (ht : HasColumns o t cols) (hm : MeasuresBy f o)
    (h : Chats (mergeRowsVerticalL t arg sep compact fuel o) es e o') (hq : LeavesAlone A es) :
    o' = o ∧ ∃ e', Talks (mergeRowsVerticalT f (tableSeen G A o t cols) arg sep compact fuel) (heard o es) e' ∧
      e = outcomeOf e' :=
  talks_alone (lsim_mergeV ht arg sep compact fuel) (chained_mergeV h) hm h hq

/-- C87. If moreover the list always gives the same answers, a merge by rows writes and ends as described for fixed
lists (`C23` to `C31`). -/
theorem C87_fixed_horizontal {σ : Type} (G : Nat → Getter σ ι ν ε) (A : Nat → Alignment) (f : Flags) (t : Nat)
    (cols : List Nat) (items : Items) (fails : Nat → Bool) (arg : Int) (sep : GoString) (compact : Bool) (fuel : Nat)
    (o : Objects) (es : List (CallEvent ι ν ε)) (e : Outcome Unit) (o' : Objects) (ht : HasColumns o t cols) (hm : MeasuresBy f o)
    (h : Chats (mergeRowsHorizontalL t arg sep compact fuel o) es e o') (hq : LeavesAlone A es)
    (hf : Fixed items fails (heard o es)) :
    ∃ e', e = outcomeOf e' ∧
      mergeRowsHorizontal f (tableSeen G A o t cols) items arg sep compact fails fuel = outcome (heard o es) e' := by
  obtain ⟨_, e', h1, h2⟩ := C87_horizontal G A f t cols arg sep compact fuel o es e o' ht hm h hq
  exact ⟨e', h2, C79_horizontal _ _ _ _ _ _ _ _ _ _ h1 hf⟩

/-- C87. The same for a merge by columns; there the search ends within as many rounds as there are items, and one
more. -/
theorem C87_fixed_vertical {σ : Type} (G : Nat → Getter σ ι ν ε) (A : Nat → Alignment) (f : Flags) (t : Nat)
    (cols : List Nat) (items : Items) (fails : Nat → Bool) (arg : Int) (sep : GoString) (compact : Bool) (fuel : Nat)
    (o : Objects) (es : List (CallEvent ι ν ε)) (e : Outcome Unit) (o' : Objects) (ht : HasColumns o t cols) (hm : MeasuresBy f o)
    (h : Chats (mergeRowsVerticalL t arg sep compact fuel o) es e o') (hq : LeavesAlone A es)
    (hf : Fixed items fails (heard o es)) :
    ∃ e', e = outcomeOf e' ∧ ((e' = .unfinished ∧ fuel ≤ items.len) ∨
      some (mergeRowsVertical f (tableSeen G A o t cols) items arg sep compact fails) = outcome (heard o es) e') := by
  obtain ⟨_, e', h1, h2⟩ := C87_vertical G A f t cols arg sep compact fuel o es e o' ht hm h hq
  exact ⟨e', h2, C79_vertical _ _ _ _ _ _ _ _ _ _ h1 hf⟩

/- Alignments that fill up with dots. -/
def dotted (_ : Nat) : Alignment := fun text w => List.replicate (w.toNat - text.length) 0x2E ++ text

/- User code that keeps its hands off the table; the second write fails. -/
def awayUser : UserCode Unit Nat Unit where
  value := fun _ _ _ o => (.panicked, o)
  format := fun _ _ _ _ o => (.panicked, o)
  valueString := fun _ _ _ _ o => (.panicked, o)
  align := fun _ al text w o => (some (dotted al text w), o)
  len := fun _ o => (some 5, o)
  get := fun _ i o => (some ⟨i.toNat, 0, 2⟩, o)
  write := fun past _ o => (some ((past.filterMap sentOf).length == 1), o)

theorem away_alone (past : List (CallEvent Unit Nat Unit)) (p : Chat Unit Nat Unit α) :
    LeavesAlone dotted (playOut awayUser past p).1 := by
  induction p generalizing past with
  | ret a o => intro ev h; cases h
  | panic why o => intro ev h; cases h
  | unfinished o => intro ev h; cases h
  | value g item o k ih => exact List.forall_mem_cons.mpr ⟨⟨rfl, trivial⟩, ih _ _ _⟩
  | format g item v o k ih => exact List.forall_mem_cons.mpr ⟨⟨rfl, trivial⟩, ih _ _ _⟩
  | valueString g name item o k ih => exact List.forall_mem_cons.mpr ⟨⟨rfl, trivial⟩, ih _ _ _⟩
  | align al text w o k ih => exact List.forall_mem_cons.mpr ⟨⟨rfl, rfl⟩, ih _ _ _⟩
  | len o k ih => exact List.forall_mem_cons.mpr ⟨⟨rfl, nofun⟩, ih _ _ _⟩
  | get i o k ih => exact List.forall_mem_cons.mpr ⟨⟨rfl, nofun⟩, ih _ _ _⟩
  | write text o k ih => exact List.forall_mem_cons.mpr ⟨⟨rfl, nofun⟩, ih _ _ _⟩

/- Two columns, a search with two rounds, and what the list and the writer heard. -/
example : ∃ (es : List (CallEvent Unit Nat Unit)) (e : _) (o' : Objects), HasColumns liveObjects 0 [0, 1] ∧
    MeasuresBy ⟨false, true⟩ liveObjects ∧
    Chats (mergeRowsVerticalL 0 24 (lit " | ") true 9 liveObjects) es e o' ∧ LeavesAlone dotted es ∧
    e = .panicked (.run .write) ∧ (heard liveObjects es).length = 20 ∧
    (heard liveObjects es)[19]? = some (.write (lit "xx 1 | xxxx 1 | \n") true) := by
  refine ⟨_, _, _, ⟨0, rfl, rfl, ?_⟩, fun _ _ => rfl, playOut_chats awayUser [] _, away_alone _ _, by decide +kernel, by decide +kernel,
    by decide +kernel⟩
  intro i hi
  match i, hi with
  | 0, _ => rfl
  | 1, _ => rfl

/- A fixed list. -/
example : ∃ (es : List (CallEvent Unit Nat Unit)) (e : _) (o' : Objects), HasColumns liveObjects 0 [0, 1] ∧
    MeasuresBy ⟨false, true⟩ liveObjects ∧
    Chats (mergeRowsHorizontalL 0 20 (lit " | ") false 9 liveObjects) es e o' ∧ LeavesAlone dotted es ∧
    Fixed ⟨5, fun i => [List.replicate (i.toNat + 1) 0x78, lit "1"]⟩ (· == 1) (heard liveObjects es) ∧
    e = .panicked (.run .write) := by
  refine ⟨_, _, _, ⟨0, rfl, rfl, ?_⟩, fun _ _ => rfl, playOut_chats awayUser [] _, away_alone _ _, ?_, by decide +kernel⟩
  · intro i hi
    match i, hi with
    | 0, _ => rfl
    | 1, _ => rfl
  · have h1 : ((heard liveObjects (playOut awayUser []
        (mergeRowsHorizontalL 0 20 (lit " | ") false 9 liveObjects)).1).all fun ev => match ev with
          | .len n => n == 5
          | .get i row => row == [List.replicate (i.toNat + 1) 0x78, lit "1"]
          | .write _ _ => true) = true := by decide +kernel
    have h2 : failures (heard liveObjects (playOut awayUser []
        (mergeRowsHorizontalL 0 20 (lit " | ") false 9 liveObjects)).1) = [false, true] := by
      decide +kernel
    rw [List.all_eq_true] at h1
    refine ⟨fun n hn => by simpa using h1 _ hn, fun i row hi => by simpa using h1 _ hi, fun k failed hk => ?_⟩
    rw [h2] at hk
    match k, hk with
    | 0, hk => cases hk; rfl
    | 1, hk => cases hk; rfl

/-! ## C88 -/

/-- C88. A panic of user code and a failed write end a merge at once: nothing is called after it, and the merge panics
with it. A merge ends in these ways only after such a call. -/
theorem C88_stops (t : Nat) (arg : Int) (sep : GoString) (compact : Bool) (fuel : Nat) (o : Objects)
    (es : List (CallEvent ι ν ε)) (e : Outcome Unit) (o' : Objects)
    (h : Chats (mergeRowsHorizontalL t arg sep compact fuel o) es e o' ∨
      Chats (mergeRowsVerticalL t arg sep compact fuel o) es e o') : StopsAtTrouble es e := by
  rcases h with h | h
  · exact trouble_merges _ _ _ _ _ _ _ _ _ _ _ _ ((C85_horizontal ..).mp h)
  · exact trouble_merges _ _ _ _ _ _ _ _ _ _ _ _ ((C85_vertical ..).mp h)

/- The second write fails. -/
example : ∃ (es : List (CallEvent Unit Nat Unit)) (ev : _) (o' : Objects),
    Chats (mergeRowsHorizontalL 0 20 (lit " | ") false 9 liveObjects) (es ++ [ev])
      (.panicked (.run .write)) o' ∧ trouble ev = some (.run .write) ∧ es.length = 10 := by
  have h := playOut_chats awayUser [] (mergeRowsHorizontalL 0 20 (lit " | ") false 9 liveObjects)
  have he : (playOut awayUser [] (mergeRowsHorizontalL 0 20 (lit " | ") false 9 liveObjects)).2.1 =
    .panicked (.run .write) := by decide +kernel
  have hl : (playOut awayUser [] (mergeRowsHorizontalL 0 20 (lit " | ") false 9 liveObjects)).1.length =
    11 := by decide +kernel
  rw [he] at h
  rcases C88_stops _ _ _ _ _ _ _ _ _ (.inl h) with ⟨_, _, h1⟩ | ⟨es1, ev, why, h1, h2, h3, h4⟩
  · exact absurd rfl h1
  · cases h4
    rw [h1] at h hl
    exact ⟨es1, ev, _, h, h3, by simpa using hl⟩

/-! ## C89 -/

/-- C89. As long as user code leaves the slice of columns alone, without nil in it, and all rows have a cell for each of
the columns, a merge does not run into an index out of range or a nil pointer. User code may put other columns in the
place of the old ones, and change names, alignments, recorded widths and rows. -/
theorem C89_steady (t : Nat) (s : Slice) (arg : Int) (sep : GoString) (compact : Bool) (fuel : Nat)
    (o : Objects) (es : List (CallEvent ι ν ε)) (e : Outcome Unit) (o' : Objects)
    (h : Chats (mergeRowsHorizontalL t arg sep compact fuel o) es e o' ∨
      Chats (mergeRowsVerticalL t arg sep compact fuel o) es e o')
    (ho : Steady t s o) (hk : KeepsColumns t s es) :
    Steady t s o' ∧ e ≠ .panicked (.run .index) ∧ ∀ p, e ≠ .panicked (.onNil p) := by
  have : Steady t s o' ∧ ¬ Missing e := by
    rcases h with h | h
    · obtain ⟨h1, h2, _⟩ := safe_merges t s arg sep verdictH downH onLineH length_onLineH compact fuel _ _ _ _
        ((C85_horizontal ..).mp h) ho hk
      exact ⟨h1, h2⟩
    · obtain ⟨h1, h2, _⟩ := safe_merges t s arg sep verdictV downV (fun n g i => onLineV n g (linesFor n g) i)
        (fun n g i => length_onLineV n g _ i) compact fuel _ _ _ _ ((C85_vertical ..).mp h) ho hk
      exact ⟨h1, h2⟩
  exact ⟨this.1, fun h => this.2 (.inl h), fun p h => this.2 (.inr ⟨p, h⟩)⟩

theorem widening_keeps (past es : List (CallEvent Unit Nat Unit)) (o o' : Objects) (hc : Chained o es o')
    (ho : Steady 0 ⟨0, 0, 2⟩ o) (h : Told wideningUser past es) : KeepsColumns 0 ⟨0, 0, 2⟩ es := by
  induction es generalizing past o with
  | nil => intro ev h; cases h
  | cons ev es ih =>
    cases hc with
    | cons _ _ _ _ hb hc =>
    subst hb
    have key : KeepsColumns 0 ⟨0, 0, 2⟩ [ev] ∧ ∃ past', Told wideningUser past' es := by
      cases h with
      | value _ _ _ _ _ _ _ hr h | format _ _ _ _ _ _ _ _ hr h | valueString _ _ _ _ _ _ _ _ hr h =>
        cases hr; exact ⟨List.forall_mem_singleton.mpr ⟨ho, trivial⟩, _, h⟩
      | align _ _ _ _ _ _ _ _ hr h =>
        simp only [wideningUser, Prod.mk.injEq] at hr
        refine ⟨List.forall_mem_singleton.mpr ⟨?_, trivial⟩, _, h⟩
        show Steady 0 ⟨0, 0, 2⟩ _
        rw [← hr.2]
        split
        · exact ho
        · exact ho
      | len _ _ _ _ _ hr h => cases hr; exact ⟨List.forall_mem_singleton.mpr ⟨ho, trivial⟩, _, h⟩
      | get _ _ _ _ _ _ hr h => cases hr; exact ⟨List.forall_mem_singleton.mpr ⟨ho, Nat.le_refl 2⟩, _, h⟩
      | write _ _ _ _ _ _ hr h => cases hr; exact ⟨List.forall_mem_singleton.mpr ⟨ho, trivial⟩, _, h⟩
    obtain ⟨h1, past', h3⟩ := key
    have h1 := List.forall_mem_singleton.mp h1
    exact List.forall_mem_cons.mpr ⟨h1, ih past' _ hc h1.1 h3⟩

/-- C89. Whatever user code does, merges ask only for items from 0 up to the length the list gave last. -/
theorem C89_range (t : Nat) (arg : Int) (sep : GoString) (compact : Bool) (fuel : Nat) (o : Objects)
    (es : List (CallEvent ι ν ε)) (e : Outcome Unit) (o' : Objects)
    (h : Chats (mergeRowsHorizontalL t arg sep compact fuel o) es e o' ∨
      Chats (mergeRowsVerticalL t arg sep compact fuel o) es e o') : KeepsRange 0 es := by
  rcases h with h | h
  · exact range_merges t arg sep verdictH downH onLineH (fun n g j k h => mem_downH n g j k h)
      (fun n g i k h => mem_onLineH n g i k h) compact fuel _ _ _ _ ((C85_horizontal ..).mp h) 0
  · exact range_merges t arg sep verdictV downV (fun n g i => onLineV n g (linesFor n g) i)
      (fun n g j k h => mem_downV n g j k h)
      (fun n g i k h => mem_onLineV n g _ i k h) compact fuel _ _ _ _ ((C85_vertical ..).mp h) 0

/- The recorded widths change between the calls, the columns do not. -/
example : ∃ (es : List (CallEvent Unit Nat Unit)) (e : _) (o' : Objects),
    Chats (mergeRowsVerticalL 0 20 (lit " | ") false 9 liveObjects) es e o' ∧
    Steady 0 ⟨0, 0, 2⟩ liveObjects ∧ KeepsColumns 0 ⟨0, 0, 2⟩ es ∧ e = .returned () ∧ liveObjects.widths 0 ≠ o'.widths 0 := by
  have steady : Steady 0 ⟨0, 0, 2⟩ liveObjects := by
    refine ⟨⟨0, rfl, rfl⟩, fun i hi => ?_⟩
    match i, hi with
    | 0, _ => simp [liveObjects]
    | 1, _ => simp [liveObjects]
  have h := playOut_chats wideningUser [] (mergeRowsVerticalL 0 20 (lit " | ") false 9 liveObjects)
  refine ⟨_, _, _, h, steady, ?_, by decide +kernel, fun h => ?_⟩
  · exact widening_keeps _ _ _ _ (chained_mergeV h) steady (playOut_told _ _ _)
  · have := congrArg (Option.map fun m : WidthMap => m (lit "a")) h
    revert this
    decide +kernel

/-! ## C90 -/

theorem plain_calls {t : Nat} {arg : Int} {sep : GoString} {verdict : Int → Nat → Verdict}
    {down onLine : Nat → Nat → Nat → List Nat} {fuel : Nat} {o : Objects} {es : List (CallEvent ι ν ε)} {o' : Objects}
    (h : Merges t arg sep verdict down onLine false fuel o es (.returned ()) o') :
    ∃ sp g, o.spec t = some sp ∧ g = plainGroups (clamped arg) sep.length (pitchNow t o (o.columns sp) sep.length) ∧
    ∃ n : Int, es.filterMap lengthOf = [some n] ∧ (es.filterMap sentOf).length = linesClaimed n g ∧
      es.filterMap itemOf = ((List.range (linesClaimed n g)).flatMap (onLine n.toNat g)).map Int.ofNat := by
  cases h with
  | plain sp _ _ _ _ h _ _ _ hr => exact ⟨sp, _, h, rfl, calls_prints _ _ _ _ _ _ _ _ _ _ hr⟩
  | compact _ _ _ _ _ _ _ _ hc => cases hc

/-- C90. If a merge without search returns, then whatever user code did it has asked for the length once, for each item
once, and made one write for each line of the listing. By rows, the items are asked for in order. -/
theorem C90_horizontal (t : Nat) (arg : Int) (sep : GoString) (fuel : Nat) (o : Objects)
    (es : List (CallEvent ι ν ε)) (o' : Objects)
    (h : Chats (mergeRowsHorizontalL t arg sep false fuel o) es (.returned ()) o') :
    ∃ (sp : Nat) (n : Int), o.spec t = some sp ∧ es.filterMap lengthOf = [some n] ∧
      es.filterMap itemOf = (List.range n.toNat).map Int.ofNat ∧
      (es.filterMap sentOf).length =
        linesClaimed n (plainGroups (clamped arg) sep.length (pitchNow t o (o.columns sp) sep.length)) := by
  obtain ⟨sp, g, h1, hg, n, h2, h3, h4⟩ := plain_calls ((C85_horizontal ..).mp h)
  refine ⟨sp, n, h1, h2, ?_, hg ▸ h3⟩
  rw [h4]
  by_cases hn : 0 < n
  · rw [linesClaimed, if_pos hn, C30_each_once _ _ (by rw [hg]; unfold plainGroups; omega)]
  · rw [show n.toNat = 0 from by omega, flatMap_nil_of _ _ fun i _ => List.eq_nil_iff_forall_not_mem.mpr fun k hk =>
      absurd (mem_onLineH 0 g i k hk) (Nat.not_lt_zero _)]
    rfl

/-- C90. By columns, every item is asked for once as well. -/
theorem C90_vertical (t : Nat) (arg : Int) (sep : GoString) (fuel : Nat) (o : Objects)
    (es : List (CallEvent ι ν ε)) (o' : Objects)
    (h : Chats (mergeRowsVerticalL t arg sep false fuel o) es (.returned ()) o') :
    ∃ (sp : Nat) (n : Int), o.spec t = some sp ∧ es.filterMap lengthOf = [some n] ∧
      (es.filterMap itemOf).Perm ((List.range n.toNat).map Int.ofNat) ∧
      (es.filterMap sentOf).length =
        linesClaimed n (plainGroups (clamped arg) sep.length (pitchNow t o (o.columns sp) sep.length)) := by
  obtain ⟨sp, g, h1, hg, n, h2, h3, h4⟩ := plain_calls ((C85_vertical ..).mp h)
  refine ⟨sp, n, h1, h2, ?_, hg ▸ h3⟩
  rw [h4]
  by_cases hn : 0 < n
  · rw [linesClaimed, if_pos hn]
    exact (C31_each_once _ _ (by omega) (by rw [hg]; unfold plainGroups; omega)).map _
  · rw [show n.toNat = 0 from by omega, flatMap_nil_of _ _ fun i _ => List.eq_nil_iff_forall_not_mem.mpr fun k hk =>
      absurd (mem_onLineV 0 g _ i k hk) (Nat.not_lt_zero _)]
    rfl

/- Even with a writer that removes a column. -/
example : ∃ (es : List (CallEvent Unit Nat Unit)) (o' : Objects),
    Chats (mergeRowsHorizontalL 0 20 (lit " | ") false 9 liveObjects) es (.returned ()) o' ∧
    es.filterMap lengthOf = [some 5] ∧ es.filterMap itemOf = [0, 1, 2, 3, 4] ∧ (es.filterMap sentOf).length = 3 := by
  have h := playOut_chats removingUser [] (mergeRowsHorizontalL 0 20 (lit " | ") false 9 liveObjects)
  have he : (playOut removingUser [] (mergeRowsHorizontalL 0 20 (lit " | ") false 9 liveObjects)).2.1 =
    .returned () := by decide +kernel
  rw [he] at h
  exact ⟨_, _, h, by decide +kernel, by decide +kernel, by decide +kernel⟩

/-! ## C91 -/

/-- C91. The bound on the rounds of the search makes no difference once the search ends within it. -/
theorem C91_rounds (t : Nat) (arg : Int) (sep : GoString) (compact : Bool) (fuel fuel' : Nat) (o : Objects)
    (es : List (CallEvent ι ν ε)) (e : Outcome Unit) (o' : Objects) (he : e ≠ .unfinished) (hf : fuel ≤ fuel') :
    (Chats (mergeRowsHorizontalL t arg sep compact fuel o) es e o' →
      Chats (mergeRowsHorizontalL t arg sep compact fuel' o) es e o') ∧
    (Chats (mergeRowsVerticalL t arg sep compact fuel o) es e o' →
      Chats (mergeRowsVerticalL t arg sep compact fuel' o) es e o') :=
  ⟨fun h => (C85_horizontal ..).mpr (merges_more ((C85_horizontal ..).mp h) he fuel' hf),
    fun h => (C85_vertical ..).mpr (merges_more ((C85_vertical ..).mp h) he fuel' hf)⟩

/-- C91. Merges without search come to an end, whatever user code does. -/
theorem C91_plain (t : Nat) (arg : Int) (sep : GoString) (fuel : Nat) (o : Objects)
    (es : List (CallEvent ι ν ε)) (e : Outcome Unit) (o' : Objects)
    (h : Chats (mergeRowsHorizontalL t arg sep false fuel o) es e o' ∨
      Chats (mergeRowsVerticalL t arg sep false fuel o) es e o') : e ≠ .unfinished := by
  rcases h with h | h
  · exact plain_finish ((C85_horizontal ..).mp h)
  · exact plain_finish ((C85_vertical ..).mp h)

/-- C91. A merge by columns comes to an end also with a search, if the lengths its list gives stay between `-N` and `N`,
whatever else user code does: `N` rounds are enough. -/
theorem C91_vertical (t : Nat) (arg : Int) (sep : GoString) (compact : Bool) (fuel N : Nat) (o : Objects)
    (es : List (CallEvent ι ν ε)) (e : Outcome Unit) (o' : Objects)
    (h : Chats (mergeRowsVerticalL t arg sep compact fuel o) es e o') (hN : LengthsWithin N es) (hf : N ≤ fuel)
    (h0 : 0 < fuel) : e ≠ .unfinished :=
  merges_finish ((C85_vertical ..).mp h) hN hf h0

/- Three rounds are enough here, and two are not. -/
example :
    (∃ (es : List (CallEvent Unit Nat Unit)) (o' : Objects),
      Chats (mergeRowsVerticalL 0 60 (lit " | ") true 3 { liveObjects with
        recorded := fun _ _ => 30 }) es (.returned ()) o' ∧
      es.filterMap lengthOf = [some 5, some 5, some 5, some 5] ∧ LengthsWithin 5 es) ∧
    ∃ (es : List (CallEvent Unit Nat Unit)) (o' : Objects),
      Chats (mergeRowsVerticalL 0 60 (lit " | ") true 2 { liveObjects with
        recorded := fun _ _ => 30 }) es .unfinished o' := by
  have h := playOut_chats wideningUser [] (mergeRowsVerticalL 0 60 (lit " | ") true 3
    { liveObjects with recorded := fun _ _ => 30 })
  have he : (playOut wideningUser [] (mergeRowsVerticalL 0 60 (lit " | ") true 3
    { liveObjects with recorded := fun _ _ => 30 })).2.1 = .returned () := by decide +kernel
  have hl : (playOut wideningUser [] (mergeRowsVerticalL 0 60 (lit " | ") true 3
    { liveObjects with recorded := fun _ _ => 30 })).1.filterMap lengthOf =
      [some 5, some 5, some 5, some 5] := by decide +kernel
  have h' := playOut_chats wideningUser [] (mergeRowsVerticalL 0 60 (lit " | ") true 2
    { liveObjects with recorded := fun _ _ => 30 })
  have he' : (playOut wideningUser [] (mergeRowsVerticalL 0 60 (lit " | ") true 2
    { liveObjects with recorded := fun _ _ => 30 })).2.1 = .unfinished := by decide +kernel
  rw [he] at h
  rw [he'] at h'
  refine ⟨⟨_, _, h, hl, fun n hn => ?_⟩, _, _, h'⟩
  rw [hl] at hn
  simp only [List.mem_cons, Option.some.injEq, List.not_mem_nil, or_false, or_self] at hn
  omega

end GoTable
