import Verif.Model.Talk
import Verif.Spec.Merge
/-!
# Specification: the calls a merge makes

What a merge says to the caller's list and writer and what it is answered, as a list of events. From the
model it takes only the shape of a conversation.
-/

namespace GoTable.Spec

variable {σ ι ν ε : Type}

/-- A call and its answer: `Len()`, `Get(i)`, or a `Write` and whether it failed. -/
inductive Event where
  | len (n : Int)
  | get (i : Int) (row : List GoString)
  | write (text : GoString) (failed : Bool)
deriving DecidableEq

/-- How a conversation ends. -/
inductive Ending (α : Type) where
  | returned (a : α)
  | panicked (p : Panic)
  | unfinished
deriving DecidableEq

/-- `p` can make the calls `es`, in this order, with these answers, and then end with `e`. The answers are
arbitrary: they may come from any user code with any state. -/
inductive Talks {α : Type} : Talk α → List Event → Ending α → Prop
  | ret (a : α) : Talks (.ret a) [] (.returned a)
  | panic (p : Panic) : Talks (.panic p) [] (.panicked p)
  | unfinished : Talks .unfinished [] .unfinished
  | len {k : Int → Talk α} (n : Int) {es : List Event} {e : Ending α} :
    Talks (k n) es e → Talks (.len k) (.len n :: es) e
  | get (i : Int) {k : List GoString → Talk α} (row : List GoString) {es : List Event} {e : Ending α} :
    Talks (k row) es e → Talks (.get i k) (.get i row :: es) e
  | write (text : GoString) {k : Bool → Talk α} (failed : Bool) {es : List Event} {e : Ending α} :
    Talks (k failed) es e → Talks (.write text k) (.write text failed :: es) e

/-- What was handed to the writer, in order. -/
def written : List Event → List GoString
  | [] => []
  | .write text _ :: es => text :: written es
  | _ :: es => written es

/-- Whether each write failed, in order. -/
def failures : List Event → List Bool
  | [] => []
  | .write _ failed :: es => failed :: failures es
  | _ :: es => failures es

/-- The items asked for, in order. -/
def asked : List Event → List Int
  | [] => []
  | .get i _ :: es => i :: asked es
  | _ :: es => asked es

/-- The answers are those of a fixed list and of a writer whose `k`-th call fails if `fails k`. -/
structure Fixed (items : Items) (fails : Nat → Bool) (es : List Event) : Prop where
  len : ∀ n, Event.len n ∈ es → n = items.len
  get : ∀ i row, Event.get i row ∈ es → row = items.get i
  write : ∀ k failed, (failures es)[k]? = some failed → failed = fails k

/-- Every item asked for is below the last length the list gave (`n` before the first event) and not negative. -/
def InRange : Int → List Event → Prop
  | _, [] => True
  | _, .len n :: es => InRange n es
  | n, .get i _ :: es => (0 ≤ i ∧ i < n) ∧ InRange n es
  | n, .write _ _ :: es => InRange n es

/-- The number of lines for a list that claims to have `n` items, `g` to a line: as many as needed, but one
blank line for a list without items if more than `1 - n` would have room. -/
def linesClaimed (n : Int) (g : Nat) : Nat :=
  if 0 < n then linesFor n.toNat g else if 1 - n < g then 1 else 0

/-- If a call is for an item, the answer has as many cells as are needed. -/
def Enough (call : Event × Nat) : Prop := ∀ i row, call.1 = .get i row → call.2 ≤ row.length

/-- The calls of the printing part, each with the number of cells needed from the answer: the length once; for each
line its items, in order, and then one write. -/
def script (f : Flags) (cols : List (Column σ ι ν ε)) (w : Nat → Nat → UInt16) (sep : GoString) (g : Nat)
    (n : Int) (rows : Nat → List GoString) (onLine : Nat → List Nat) : List (Event × Nat) :=
  (.len n, 0) :: (List.range (linesClaimed n g)).flatMap fun i =>
    ((onLine i).map fun k => (.get k (rows k), cols.length)) ++
      [(.write (lineText f cols w sep rows g (onLine i) ++ [0x0A]) false, 0)]

/-- The calls follow the script: to its end, if all items have the cells needed; or up to the first write that fails or
the first item that lacks cells. -/
inductive Follows : List (Event × Nat) → List Event → Ending Unit → Prop
  | all (s : List (Event × Nat)) (h : ∀ call ∈ s, Enough call) : Follows s (s.map Prod.fst) (.returned ())
  | write (before : List (Event × Nat)) (text : GoString) (after : List (Event × Nat))
    (h : ∀ call ∈ before, Enough call) :
    Follows (before ++ (.write text false, 0) :: after) (before.map Prod.fst ++ [.write text true]) (.panicked .write)
  | short (before : List (Event × Nat)) (i : Int) (row : List GoString) (need : Nat) (after : List (Event × Nat))
    (h : ∀ call ∈ before, Enough call) (hs : row.length < need) :
    Follows (before ++ (.get i row, need) :: after) (before.map Prod.fst ++ [.get i row]) (.panicked .index)

/-! ## Searching for more groups -/

/-- The items of group `j`, from the first line to the last, in a listing row by row. -/
def downH (n g j : Nat) : List Nat := ((List.range (linesFor n g)).map fun i => i * g + j).filter (· < n)

/-- The items of group `j`, from the first line to the last, in a listing column by column. -/
def downV (n g j : Nat) : List Nat :=
  ((List.range (linesFor n g)).map fun i => j * linesFor n g + i).filter (· < n)

/-- The calls that measure `g` groups: the length once; for each group and each column all items of the group, which
need a cell for that column. `ans j c k` is the answer for item `k` when it is asked for in group `j` for column `c`. -/
def measuring (cols g : Nat) (n : Int) (down : Nat → List Nat) (ans : Nat → Nat → Nat → List GoString) :
    List (Event × Nat) :=
  (.len n, 0) :: (List.range g).flatMap fun j => (List.range cols).flatMap fun c =>
    (down j).map fun (k : Nat) => (.get k (ans j c k), c + 1)

/-- Every answer has the cell it was asked for, and `w` are the widths of the widest of these cells. -/
def Measured (vw : GoString → UInt16) (cols g : Nat) (down : Nat → List Nat)
    (ans : Nat → Nat → Nat → List GoString) (w : Nat → Nat → UInt16) : Prop :=
  ∀ j c, j < g → c < cols →
    (∀ k ∈ down j, ∃ x, (ans j c k)[c]? = some x ∧ vw x ≤ w j c) ∧
    (w j c = 0 ∨ ∃ k ∈ down j, ∃ x, (ans j c k)[c]? = some x ∧ vw x = w j c)

/-- What is done about `g` groups once the list says it has `n` items. -/
inductive Verdict where
  | measures
  | givesUp
  | crashes
deriving DecidableEq

/-- Row by row every number of groups is measured. -/
def verdictH (_n : Int) (_g : Nat) : Verdict := .measures

/-- Column by column, `g` groups are given up if one of them would be empty. With a list that claims to have
no items or fewer than none, `g` groups are given up, crash the search or are measured, depending on how far
below zero the claim is. -/
def verdictV (n : Int) (g : Nat) : Verdict :=
  if 0 < n then if (g - 1) * linesFor n.toNat g < n.toNat then .measures else .givesUp
  else if 1 - n < g then .givesUp else if 1 - n < 2 * g then .crashes else .measures

/-- The search for more groups, from `g` groups with widths `w` on, for at most `fuel` rounds: its calls, and
how it ends. One more group is measured each time. The search goes on as long as the line still fits, in
arithmetic modulo 2^16; it ends with the last number of groups that did, and with the widths it found then. -/
inductive Searches (vw : GoString → UInt16) (cols sepLen maxWidth : Nat) (verdict : Int → Nat → Verdict)
    (down : Nat → Nat → Nat → List Nat) :
    (fuel g : Nat) → (w : Nat → Nat → UInt16) → List Event → Ending (Nat × (Nat → Nat → UInt16)) → Prop
  | unfinished (g : Nat) (w : Nat → Nat → UInt16) :
    Searches vw cols sepLen maxWidth verdict down 0 g w [] .unfinished
  | givesUp (fuel g : Nat) (w : Nat → Nat → UInt16) (n : Int) (hv : verdict n (g + 1) = .givesUp) :
    Searches vw cols sepLen maxWidth verdict down (fuel + 1) g w [.len n] (.returned (g, w))
  | crashes (fuel g : Nat) (w : Nat → Nat → UInt16) (n : Int) (hv : verdict n (g + 1) = .crashes) :
    Searches vw cols sepLen maxWidth verdict down (fuel + 1) g w [.len n] (.panicked .divideByZero)
  | short (fuel g : Nat) (w : Nat → Nat → UInt16) (n : Int) (ans : Nat → Nat → Nat → List GoString)
    (es : List Event) (hv : verdict n (g + 1) = .measures)
    (hs : Follows (measuring cols (g + 1) n (down n.toNat (g + 1)) ans) es (.panicked .index)) :
    Searches vw cols sepLen maxWidth verdict down (fuel + 1) g w es (.panicked .index)
  | tooWide (fuel g : Nat) (w : Nat → Nat → UInt16) (n : Int) (ans : Nat → Nat → Nat → List GoString)
    (w' : Nat → Nat → UInt16) (hv : verdict n (g + 1) = .measures)
    (hm : Measured vw cols (g + 1) (down n.toNat (g + 1)) ans w')
    (hw : maxWidth < fullWidth cols sepLen (g + 1) w' % 65536) :
    Searches vw cols sepLen maxWidth verdict down (fuel + 1) g w
      ((measuring cols (g + 1) n (down n.toNat (g + 1)) ans).map Prod.fst) (.returned (g, w))
  | fits (fuel g : Nat) (w : Nat → Nat → UInt16) (n : Int) (ans : Nat → Nat → Nat → List GoString)
    (w' : Nat → Nat → UInt16) (es : List Event) (e : Ending (Nat × (Nat → Nat → UInt16)))
    (hv : verdict n (g + 1) = .measures)
    (hm : Measured vw cols (g + 1) (down n.toNat (g + 1)) ans w')
    (hw : fullWidth cols sepLen (g + 1) w' % 65536 ≤ maxWidth)
    (h : Searches vw cols sepLen maxWidth verdict down fuel (g + 1) w' es e) :
    Searches vw cols sepLen maxWidth verdict down (fuel + 1) g w
      ((measuring cols (g + 1) n (down n.toNat (g + 1)) ans).map Prod.fst ++ es) e

/-- The widths on record, by column; the same in every group. -/
def recorded (t : Table σ ι ν ε) (_j c : Nat) : UInt16 :=
  match t.columns[c]? with
  | some col => t.columnWidth col.name
  | none => 0

/-- All calls of a merge: those of the search, which ends as `search` tells; then, if it found a number of
groups, those that print. `onLine n g i` are the items on line `i` if there are `n` in `g` groups. -/
inductive Conversation (f : Flags) (t : Table σ ι ν ε) (sep : GoString) (onLine : Nat → Nat → Nat → List Nat)
    (search : List Event → Ending (Nat × (Nat → Nat → UInt16)) → Prop) : List Event → Ending Unit → Prop
  | prints (s es : List Event) (e : Ending Unit) (g : Nat) (w : Nat → Nat → UInt16) (n : Int)
    (rows : Nat → List GoString) (hs : search s (.returned (g, w)))
    (h : Follows (script f t.columns w sep g n rows (onLine n.toNat g)) es e) :
    Conversation f t sep onLine search (s ++ es) e
  | panics (s : List Event) (p : Panic) (hs : search s (.panicked p)) :
    Conversation f t sep onLine search s (.panicked p)
  | unfinished (s : List Event) (hs : search s .unfinished) :
    Conversation f t sep onLine search s .unfinished

end GoTable.Spec
