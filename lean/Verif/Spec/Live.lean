import Verif.Model.Live
import Verif.Spec.Reenter
import Verif.Spec.Talk
/-!
# Specification: merges with user code that uses the table

What a merge does, as a relation between the objects before, the calls of user code, the end and the objects
after it. From the model it takes the objects and the shape of calls.
-/

namespace GoTable.Spec

variable {ι ν ε α β γ : Type}

/-- What a part of a method does: the objects before, its calls, how it ends, the objects after. -/
abbrev Run (ι ν ε α : Type) : Type := Objects → List (CallEvent ι ν ε) → Outcome α → Objects → Prop

/-- What becomes of an end if the value returned goes through `φ`. -/
def Outcome.map (φ : α → β) : Outcome α → Outcome β
  | .returned a => .returned (φ a)
  | .panicked why => .panicked why
  | .unfinished => .unfinished

/-- A part that does not return ends the whole. -/
inductive BreaksOff : Outcome α → Outcome β → Prop
  | panicked (why : Fault) : BreaksOff (.panicked why) (.panicked why)
  | unfinished : BreaksOff .unfinished .unfinished

/-- First `R`, and if it returns, what `S` does with the value. -/
inductive Then (R : Run ι ν ε α) (S : α → Run ι ν ε β) : Run ι ν ε β
  | goesOn (a : α) (o o1 o2 : Objects) (es1 es2 : List (CallEvent ι ν ε)) (e : Outcome β)
    (h : R o es1 (.returned a) o1) (hs : S a o1 es2 e o2) : Then R S o (es1 ++ es2) e o2
  | cut (o o1 : Objects) (es : List (CallEvent ι ν ε)) (e : Outcome α) (e' : Outcome β) (h : R o es e o1)
    (hc : BreaksOff e e') : Then R S o es e' o1

/-- One after the other; the values in order. -/
inductive Each (R : γ → Run ι ν ε α) : List γ → Run ι ν ε (List α)
  | nil (o : Objects) : Each R [] o [] (.returned []) o
  | cons (x : γ) (xs : List γ) (a : α) (o o1 o2 : Objects) (es1 es2 : List (CallEvent ι ν ε)) (e : Outcome (List α))
    (h : R x o es1 (.returned a) o1) (hs : Each R xs o1 es2 e o2) :
    Each R (x :: xs) o (es1 ++ es2) (e.map (a :: ·)) o2
  | cut (x : γ) (xs : List γ) (o o1 : Objects) (es : List (CallEvent ι ν ε)) (e : Outcome α) (e' : Outcome (List α))
    (h : R x o es e o1) (hc : BreaksOff e e') : Each R (x :: xs) o es e' o1

/-! ## Printing -/

/-- The width on record for the column that stands at position `c` of table `t`. -/
def widthNow (t : Nat) (o : Objects) (c : Nat) : Except Fault UInt16 :=
  match o.spec t with
  | none => .error (.onNil .deref)
  | some sp =>
    if c < (o.columns sp).len then
      match o.element (o.columns sp).array ((o.columns sp).first + c) with
      | none => .error (.onNil .deref)
      | some col => .ok (((o.widths t).map fun m => m (o.column col).name).getD 0)
    else .error (.run .index)

/-- The width found by the search for column `c` of group `j`; they are listed group by group, `cols` to a group. -/
def widthFound (ws : List UInt16) (cols j : Nat) (c : Nat) : Except Fault UInt16 :=
  match ws[j * cols + c]? with
  | none => .error (.run .index)
  | some w => .ok w

/-- The widths a merge prints with: those it found, or else those on record. -/
def widthIn (t : Nat) (cols : Nat) (found : Option (List UInt16)) (j : Nat) (o : Objects) (c : Nat) :
    Except Fault UInt16 :=
  match found with
  | none => widthNow t o c
  | some ws => widthFound ws cols j c

/-- `text`, measured `m`, and the spaces it takes to make it `w` wide. -/
def leftOf (m : UInt16) (text : GoString) (w : UInt16) : GoString :=
  text ++ List.replicate (w.toNat - m.toNat) 0x20

/-- The cell for position `c` of the slice of columns `s`, from the row `row`, in a line with room for `cols` cells.
The alignment is the one the column has that stands there then; it gets the text that stands in the row then and
the width `W` tells. A cell without room is aligned all the same. -/
inductive MakesCell (cols : Nat) (W : Objects → Nat → Except Fault UInt16) (s row : Slice) (c : Nat)
    (o : Objects) : List (CallEvent ι ν ε) → Outcome GoString → Objects → Prop
  | nilColumn (h : o.element s.array (s.first + c) = none) :
    MakesCell cols W s row c o [] (.panicked (.onNil .deref)) o
  | short (col : Nat) (h : o.element s.array (s.first + c) = some col) (hr : row.len ≤ c) :
    MakesCell cols W s row c o [] (.panicked (.run .index)) o
  | noWidth (col : Nat) (why : Fault) (h : o.element s.array (s.first + c) = some col) (hr : c < row.len)
    (hw : W o c = .error why) : MakesCell cols W s row c o [] (.panicked why) o
  | left (col : Nat) (w : UInt16) (h : o.element s.array (s.first + c) = some col) (hr : c < row.len)
    (hw : W o c = .ok w) (ha : (o.column col).alignment = none) (hc : c < cols) :
    MakesCell cols W s row c o [] (.returned (leftOf (o.answer c (o.strings row.array (row.first + c)))
      (o.strings row.array (row.first + c)) w)) o
  | leftNoRoom (col : Nat) (w : UInt16) (h : o.element s.array (s.first + c) = some col) (hr : c < row.len)
    (hw : W o c = .ok w) (ha : (o.column col).alignment = none) (hc : cols ≤ c) :
    MakesCell cols W s row c o [] (.panicked (.run .index)) o
  | aligned (col al : Nat) (w : UInt16) (text : GoString) (o' : Objects)
    (h : o.element s.array (s.first + c) = some col) (hr : c < row.len) (hw : W o c = .ok w)
    (ha : (o.column col).alignment = some al) (hc : c < cols) :
    MakesCell cols W s row c o [.align al (o.strings row.array (row.first + c)) w o (some text) o']
      (.returned text) o'
  | alignedNoRoom (col al : Nat) (w : UInt16) (text : GoString) (o' : Objects)
    (h : o.element s.array (s.first + c) = some col) (hr : c < row.len) (hw : W o c = .ok w)
    (ha : (o.column col).alignment = some al) (hc : cols ≤ c) :
    MakesCell cols W s row c o [.align al (o.strings row.array (row.first + c)) w o (some text) o']
      (.panicked (.run .index)) o'
  | alignPanics (col al : Nat) (w : UInt16) (o' : Objects)
    (h : o.element s.array (s.first + c) = some col) (hr : c < row.len) (hw : W o c = .ok w)
    (ha : (o.column col).alignment = some al) :
    MakesCell cols W s row c o [.align al (o.strings row.array (row.first + c)) w o none o']
      (.panicked .passedOn) o'

/-- Item `k`: its row is asked for; then one cell for each column the table has then. With fewer of them than `cols`
the other cells are empty. They are joined by single spaces. -/
inductive MakesItem (t cols : Nat) (W : Objects → Nat → Except Fault UInt16) (k : Nat) : Run ι ν ε GoString
  | panics (o o' : Objects) : MakesItem t cols W k o [.get k o none o'] (.panicked .passedOn) o'
  | nilSpec (row : Slice) (o o1 : Objects) (h : o1.spec t = none) :
    MakesItem t cols W k o [.get k o (some row) o1] (.panicked (.onNil .deref)) o1
  | made (row : Slice) (sp : Nat) (o o1 o2 : Objects) (es : List (CallEvent ι ν ε)) (e : Outcome (List GoString))
    (h : o1.spec t = some sp)
    (hs : Each (MakesCell cols W (o1.columns sp) row) (List.range (o1.columns sp).len) o1 es e o2) :
    MakesItem t cols W k o (.get k o (some row) o1 :: es)
      (e.map fun texts => List.intercalate [0x20] (texts ++ List.replicate (cols - texts.length) [])) o2

/-- A line with the items `shown`, in a listing with `g` groups: the items in order, then one write of the line. -/
inductive WritesLine (t cols : Nat) (W : Nat → Objects → Nat → Except Fault UInt16) (sep : GoString)
    (g : Nat) (shown : List Nat) : Run ι ν ε Unit
  | cut (o o1 : Objects) (es : List (CallEvent ι ν ε)) (e : Outcome (List GoString)) (e' : Outcome Unit)
    (h : Each (fun p => MakesItem t cols (W p.2) p.1) shown.zipIdx o es e o1) (hc : BreaksOff e e') :
    WritesLine t cols W sep g shown o es e' o1
  | writes (texts : List GoString) (reply : Option Bool) (o o1 o2 : Objects) (es : List (CallEvent ι ν ε))
    (h : Each (fun p => MakesItem t cols (W p.2) p.1) shown.zipIdx o es (.returned texts) o1) :
    WritesLine t cols W sep g shown o
      (es ++ [.write (List.intercalate sep (texts ++ if shown.length < g then [[]] else []) ++ [0x0A]) o1 reply o2])
      (match reply with
        | none => .panicked .passedOn
        | some true => .panicked (.run .write)
        | some false => .returned ()) o2

/-- The printing part: the length once, then the lines. -/
inductive Prints (t cols : Nat) (W : Nat → Objects → Nat → Except Fault UInt16) (sep : GoString)
    (g : Nat) (onLine : Nat → Nat → Nat → List Nat) : Run ι ν ε Unit
  | panics (o o' : Objects) : Prints t cols W sep g onLine o [.len o none o'] (.panicked .passedOn) o'
  | lines (n : Int) (o o1 o2 : Objects) (es : List (CallEvent ι ν ε)) (e : Outcome (List Unit))
    (h : Each (fun i => WritesLine t cols W sep g (onLine n.toNat g i)) (List.range (linesClaimed n g)) o1 es e o2) :
    Prints t cols W sep g onLine o (.len o (some n) o1 :: es) (e.map fun _ => ()) o2

/-! ## Searching -/

/-- Item `k` is asked for, for the sake of column `c`: the width of that cell, as measured then. -/
inductive ReadsCell (c k : Nat) : Run ι ν ε UInt16
  | panics (o o' : Objects) : ReadsCell c k o [.get k o none o'] (.panicked .passedOn) o'
  | short (row : Slice) (o o' : Objects) (h : row.len ≤ c) :
    ReadsCell c k o [.get k o (some row) o'] (.panicked (.run .index)) o'
  | reads (row : Slice) (o o' : Objects) (h : c < row.len) :
    ReadsCell c k o [.get k o (some row) o'] (.returned (o'.answer c (o'.strings row.array (row.first + c)))) o'

/-- The largest of some widths. -/
def widest (ws : List UInt16) : UInt16 := ws.foldl max 0

/-- `g` groups are measured: the length once; then for each group, and each column of as many as the table has then,
all items of the group. The widths of the widest cells, group by group; `none` if this number of groups is
given up. -/
inductive MeasuresGroups (t : Nat) (verdict : Int → Nat → Verdict)
    (down : Nat → Nat → Nat → List Nat) (g : Nat) : Run ι ν ε (Option (List UInt16))
  | panics (o o' : Objects) : MeasuresGroups t verdict down g o [.len o none o'] (.panicked .passedOn) o'
  | nilSpec (n : Int) (o o1 : Objects) (h : o1.spec t = none) :
    MeasuresGroups t verdict down g o [.len o (some n) o1] (.panicked (.onNil .deref)) o1
  | crashes (n : Int) (sp : Nat) (o o1 : Objects) (h : o1.spec t = some sp) (hv : verdict n g = .crashes) :
    MeasuresGroups t verdict down g o [.len o (some n) o1] (.panicked (.run .divideByZero)) o1
  | givesUp (n : Int) (sp : Nat) (o o1 : Objects) (h : o1.spec t = some sp) (hv : verdict n g = .givesUp) :
    MeasuresGroups t verdict down g o [.len o (some n) o1] (.returned none) o1
  | measures (n : Int) (sp : Nat) (o o1 o2 : Objects) (es : List (CallEvent ι ν ε))
    (e : Outcome (List (List (List UInt16)))) (h : o1.spec t = some sp) (hv : verdict n g = .measures)
    (hs : Each (fun j => Each (fun c => Each (ReadsCell c) (down n.toNat g j)) (List.range (o1.columns sp).len))
      (List.range g) o1 es e o2) :
    MeasuresGroups t verdict down g o (.len o (some n) o1 :: es)
      (e.map fun cells => some (cells.flatMap fun group => group.map widest)) o2

/-- The width of a line with cells of the widths `ws`, in `g` groups of `cols` columns. -/
def lineWidth (cols sepLen g : Nat) (ws : List UInt16) : Nat :=
  (ws.map (·.toNat)).sum + g * (cols - 1) + (g - 1) * sepLen

/-- The search for more groups, from `g` groups with widths `w` on, for at most `fuel` rounds. One more group is
measured each time. The search goes on as long as the line still fits, in arithmetic modulo 2^16, and returns the
last number of groups that did with the widths it found then. -/
inductive Seeks (t cols sepLen maxWidth : Nat) (verdict : Int → Nat → Verdict)
    (down : Nat → Nat → Nat → List Nat) :
    (fuel g : Nat) → (w : Option (List UInt16)) → Run ι ν ε (Nat × Option (List UInt16))
  | unfinished (g : Nat) (w : Option (List UInt16)) (o : Objects) :
    Seeks t cols sepLen maxWidth verdict down 0 g w o [] .unfinished o
  | cut (fuel g : Nat) (w : Option (List UInt16)) (o o1 : Objects) (es : List (CallEvent ι ν ε))
    (e : Outcome (Option (List UInt16))) (e' : Outcome (Nat × Option (List UInt16)))
    (h : MeasuresGroups t verdict down (g + 1) o es e o1) (hc : BreaksOff e e') :
    Seeks t cols sepLen maxWidth verdict down (fuel + 1) g w o es e' o1
  | givesUp (fuel g : Nat) (w : Option (List UInt16)) (o o1 : Objects) (es : List (CallEvent ι ν ε))
    (h : MeasuresGroups t verdict down (g + 1) o es (.returned none) o1) :
    Seeks t cols sepLen maxWidth verdict down (fuel + 1) g w o es (.returned (g, w)) o1
  | tooWide (fuel g : Nat) (w : Option (List UInt16)) (ws : List UInt16) (o o1 : Objects) (es : List (CallEvent ι ν ε))
    (h : MeasuresGroups t verdict down (g + 1) o es (.returned (some ws)) o1)
    (hw : maxWidth < lineWidth cols sepLen (g + 1) ws % 65536) :
    Seeks t cols sepLen maxWidth verdict down (fuel + 1) g w o es (.returned (g, w)) o1
  | fits (fuel g : Nat) (w : Option (List UInt16)) (ws : List UInt16) (o o1 o2 : Objects)
    (es1 es2 : List (CallEvent ι ν ε)) (e : Outcome (Nat × Option (List UInt16)))
    (h : MeasuresGroups t verdict down (g + 1) o es1 (.returned (some ws)) o1)
    (hw : lineWidth cols sepLen (g + 1) ws % 65536 ≤ maxWidth)
    (hs : Seeks t cols sepLen maxWidth verdict down fuel (g + 1) (some ws) o1 es2 e o2) :
    Seeks t cols sepLen maxWidth verdict down (fuel + 1) g w o (es1 ++ es2) e o2

/-! ## Whole merges -/

/-- The name of the column at position `i` of the slice `s`, if there is one. -/
def nameAt (o : Objects) (s : Slice) (i : Nat) : Option GoString :=
  (o.element s.array (s.first + i)).map fun col => (o.column col).name

/-- What one item takes in the estimate of the group count: the widths on record for the columns of `s`, and one
separator for each of them. -/
def pitchNow (t : Nat) (o : Objects) (s : Slice) (sepLen : Nat) : Nat :=
  ((List.range s.len).map fun i =>
    (((o.widths t).bind fun m => (nameAt o s i).map fun name => m name).getD 0).toNat).sum + s.len * sepLen

/-- A merge of table `t`. How many columns there are, and the first number of groups, is settled when it is called. -/
inductive Merges (t : Nat) (arg : Int) (sep : GoString) (verdict : Int → Nat → Verdict)
    (down : Nat → Nat → Nat → List Nat) (onLine : Nat → Nat → Nat → List Nat) (compact : Bool) (fuel : Nat) :
    Run ι ν ε Unit
  | nilSpec (o : Objects) (h : o.spec t = none) :
    Merges t arg sep verdict down onLine compact fuel o [] (.panicked (.onNil .deref)) o
  | nilColumn (sp i : Nat) (o : Objects) (h : o.spec t = some sp) (hi : i < (o.columns sp).len)
    (hn : nameAt o (o.columns sp) i = none) :
    Merges t arg sep verdict down onLine compact fuel o [] (.panicked (.onNil .deref)) o
  | zero (sp : Nat) (o : Objects) (h : o.spec t = some sp)
    (hn : ∀ i, i < (o.columns sp).len → nameAt o (o.columns sp) i ≠ none)
    (hp : pitchNow t o (o.columns sp) sep.length % 65536 = 0) :
    Merges t arg sep verdict down onLine compact fuel o [] (.panicked (.run .divideByZero)) o
  | plain (sp : Nat) (o o' : Objects) (es : List (CallEvent ι ν ε)) (e : Outcome Unit) (h : o.spec t = some sp)
    (hn : ∀ i, i < (o.columns sp).len → nameAt o (o.columns sp) i ≠ none)
    (hp : pitchNow t o (o.columns sp) sep.length % 65536 ≠ 0) (hc : compact = false)
    (hr : Prints t (o.columns sp).len (widthIn t (o.columns sp).len none) sep
      (plainGroups (clamped arg) sep.length (pitchNow t o (o.columns sp) sep.length)) onLine o es e o') :
    Merges t arg sep verdict down onLine compact fuel o es e o'
  | compact (sp : Nat) (o o' : Objects) (es : List (CallEvent ι ν ε)) (e : Outcome Unit) (h : o.spec t = some sp)
    (hn : ∀ i, i < (o.columns sp).len → nameAt o (o.columns sp) i ≠ none)
    (hp : pitchNow t o (o.columns sp) sep.length % 65536 ≠ 0) (hc : compact = true)
    (hr : Then
      (Seeks t (o.columns sp).len sep.length (clamped arg) verdict down fuel
        (plainGroups (clamped arg) sep.length (pitchNow t o (o.columns sp) sep.length)) none)
      (fun r => Prints t (o.columns sp).len (widthIn t (o.columns sp).len r.2) sep r.1 onLine) o es e o') :
    Merges t arg sep verdict down onLine compact fuel o es e o'

/-! ## What holds of them -/

/-- Each call sees the objects the one before has left, the first one those in the beginning; in the end they are
as the last one left them. -/
inductive Chained : Objects → List (CallEvent ι ν ε) → Objects → Prop
  | nil (o : Objects) : Chained o [] o
  | cons (c : CallEvent ι ν ε) (es : List (CallEvent ι ν ε)) (o o' : Objects) (hb : c.before = o)
    (h : Chained c.after es o') : Chained o (c :: es) o'

/-- The strings of a slice. -/
def rowOf (o : Objects) (s : Slice) : List GoString := (List.range s.len).map fun i => o.strings s.array (s.first + i)

/-- User code does not panic in this call; alignments reply as the functions `A`. -/
def Replies (A : Nat → Alignment) : CallEvent ι ν ε → Prop
  | .align al text w _ reply _ => reply = some (A al text w)
  | .len _ reply _ => reply ≠ none
  | .get _ _ reply _ => reply ≠ none
  | .write _ _ reply _ => reply ≠ none
  | _ => True

/-- User code leaves the objects as they are and does not panic; alignments reply as the functions `A`. -/
def LeavesAlone (A : Nat → Alignment) (es : List (CallEvent ι ν ε)) : Prop :=
  ∀ ev ∈ es, ev.after = ev.before ∧ Replies A ev

/-- The same, but settings and cache may have changed. -/
def LeavesTable (A : Nat → Alignment) (es : List (CallEvent ι ν ε)) : Prop :=
  ∀ ev ∈ es, ev.after.ButAnswers ev.before ∧ Replies A ev

/-- What list and writer were asked and what they replied, if the strings are those in `o`. -/
def heard (o : Objects) : List (CallEvent ι ν ε) → List Event
  | [] => []
  | .len _ (some n) _ :: es => .len n :: heard o es
  | .get i _ (some s) _ :: es => .get i (rowOf o s) :: heard o es
  | .write text _ (some failed) _ :: es => .write text failed :: heard o es
  | _ :: es => heard o es

/-- The end of a conversation, as an outcome. -/
def outcomeOf : Ending α → Outcome α
  | .returned a => .returned a
  | .panicked p => .panicked (.run p)
  | .unfinished => .unfinished

/-- Table `t` as a value, if its columns are the objects `cols`, with getters `G` and alignments `A`. -/
def tableSeen {σ : Type} (G : Nat → Getter σ ι ν ε) (A : Nat → Alignment) (o : Objects) (t : Nat) (cols : List Nat) :
    Table σ ι ν ε :=
  { columns := cols.map fun c => { columnValue G (o.column c) with alignment := (o.column c).alignment.map A }
    columnWidth := fun name => ((o.widths t).map fun m => m name).getD 0 }

/-- The columns of table `t` are the objects `cols`, none of them nil. -/
def HasColumns (o : Objects) (t : Nat) (cols : List Nat) : Prop :=
  ∃ sp, o.spec t = some sp ∧ (o.columns sp).len = cols.length ∧
    ∀ i, i < cols.length → o.element (o.columns sp).array ((o.columns sp).first + i) = cols[i]?

/-- User code panicked, or the writer failed: the panic this leads to. -/
def trouble : CallEvent ι ν ε → Option Fault
  | .align _ _ _ _ none _ => some .passedOn
  | .len _ none _ => some .passedOn
  | .get _ _ none _ => some .passedOn
  | .write _ _ none _ => some .passedOn
  | .write _ _ (some true) _ => some (.run .write)
  | _ => none

/-- Either there was no trouble, and the run does not end as if there had been; or the last call was the first with
trouble, and the run ends with it. -/
def StopsAtTrouble (es : List (CallEvent ι ν ε)) (e : Outcome α) : Prop :=
  ((∀ ev ∈ es, trouble ev = none) ∧ e ≠ .panicked .passedOn ∧ e ≠ .panicked (.run .write)) ∨
  ∃ es1 ev why, es = es1 ++ [ev] ∧ (∀ ev ∈ es1, trouble ev = none) ∧ trouble ev = some why ∧ e = .panicked why

/-- Every item asked for is below the last length the list gave (`n` before the first call) and not negative. -/
def KeepsRange : Int → List (CallEvent ι ν ε) → Prop
  | _, [] => True
  | _, .len _ (some n) _ :: es => KeepsRange n es
  | n, .get i _ _ _ :: es => (0 ≤ i ∧ i < n) ∧ KeepsRange n es
  | n, _ :: es => KeepsRange n es

/-- Table `t` has the slice of columns `s`, and none of them is nil. -/
def Steady (t : Nat) (s : Slice) (o : Objects) : Prop :=
  (∃ sp, o.spec t = some sp ∧ o.columns sp = s) ∧ ∀ i, i < s.len → o.element s.array (s.first + i) ≠ none

/-- User code leaves table `t` with the slice of columns `s`, without nil, and every row has a cell for each of them.
It may replace columns by others, rename them and change widths, alignments and rows. -/
def KeepsColumns (t : Nat) (s : Slice) (es : List (CallEvent ι ν ε)) : Prop :=
  ∀ ev ∈ es, Steady t s ev.after ∧ match ev with
    | .get _ _ (some row) _ => s.len ≤ row.len
    | _ => True

/-- What a call of `Len` replied. -/
def lengthOf : CallEvent ι ν ε → Option (Option Int)
  | .len _ n _ => some n
  | _ => none

/-- The item a call of `Get` asks for. -/
def itemOf : CallEvent ι ν ε → Option Int
  | .get i _ _ _ => some i
  | _ => none

/-- The text a call hands to the writer. -/
def sentOf : CallEvent ι ν ε → Option GoString
  | .write text _ _ _ => some text
  | _ => none

/-- All lengths the list gave are at most `N`, and not below `-N`. -/
def LengthsWithin (N : Nat) (es : List (CallEvent ι ν ε)) : Prop :=
  ∀ n : Int, some n ∈ es.filterMap lengthOf → -(N : Int) ≤ n ∧ n ≤ N

end GoTable.Spec
