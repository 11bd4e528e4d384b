import Verif.Model.Live
/-!
# Specification: methods whose getters and alignments use the table

What a method says to user code and what it is told, as a list of events. From the model it takes the objects
in memory and the shape of a method at work.
-/

namespace GoTable.Spec

variable {ι ν ε α : Type}

/-- A call of user code: what it was given, the objects before, the reply, the objects after. -/
inductive CallEvent (ι ν ε : Type) where
  | value (getter : Nat) (item : ι) (before : Objects) (reply : Reply ε ν) (after : Objects)
  | format (getter : Nat) (item : ι) (v : ν) (before : Objects) (reply : Reply ε GoString) (after : Objects)
  | valueString (getter : Nat) (colName : GoString) (item : ι) (before : Objects) (reply : Reply ε GoString)
    (after : Objects)
  | align (alignment : Nat) (text : GoString) (width : UInt16) (before : Objects) (reply : Option GoString)
    (after : Objects)
  | len (before : Objects) (reply : Option Int) (after : Objects)
  | get (i : Int) (before : Objects) (reply : Option Slice) (after : Objects)
  | write (text : GoString) (before : Objects) (reply : Option Bool) (after : Objects)

/-- The objects before a call. -/
def CallEvent.before : CallEvent ι ν ε → Objects
  | .value _ _ o _ _ => o
  | .format _ _ _ o _ _ => o
  | .valueString _ _ _ o _ _ => o
  | .align _ _ _ o _ _ => o
  | .len o _ _ => o
  | .get _ o _ _ => o
  | .write _ o _ _ => o

/-- The objects after a call. -/
def CallEvent.after : CallEvent ι ν ε → Objects
  | .value _ _ _ _ o => o
  | .format _ _ _ _ _ o => o
  | .valueString _ _ _ _ _ o => o
  | .align _ _ _ _ _ o => o
  | .len _ _ o => o
  | .get _ _ _ o => o
  | .write _ _ _ o => o

/-- How a method ends. -/
inductive Outcome (α : Type) where
  | returned (a : α)
  | panicked (why : Fault)
  | unfinished
deriving DecidableEq

/-- The method `p` can make the calls `es`, with the replies and effects recorded there, and then end with `e`,
leaving the objects `o`. Replies and effects are arbitrary. -/
inductive Chats : Chat ι ν ε α → List (CallEvent ι ν ε) → Outcome α → Objects → Prop
  | ret (a : α) (o : Objects) : Chats (.ret a o) [] (.returned a) o
  | panic (why : Fault) (o : Objects) : Chats (.panic why o) [] (.panicked why) o
  | unfinished (o : Objects) : Chats (.unfinished o) [] .unfinished o
  | value {g : Nat} {item : ι} {o : Objects} {k : Reply ε ν → Objects → Chat ι ν ε α} (r : Reply ε ν) (o' : Objects)
    {es : List (CallEvent ι ν ε)} {e : Outcome α} {last : Objects} (h : Chats (k r o') es e last) :
    Chats (.value g item o k) (.value g item o r o' :: es) e last
  | format {g : Nat} {item : ι} {v : ν} {o : Objects} {k : Reply ε GoString → Objects → Chat ι ν ε α}
    (r : Reply ε GoString) (o' : Objects) {es : List (CallEvent ι ν ε)} {e : Outcome α} {last : Objects}
    (h : Chats (k r o') es e last) : Chats (.format g item v o k) (.format g item v o r o' :: es) e last
  | valueString {g : Nat} {name : GoString} {item : ι} {o : Objects}
    {k : Reply ε GoString → Objects → Chat ι ν ε α} (r : Reply ε GoString) (o' : Objects)
    {es : List (CallEvent ι ν ε)} {e : Outcome α} {last : Objects} (h : Chats (k r o') es e last) :
    Chats (.valueString g name item o k) (.valueString g name item o r o' :: es) e last
  | align {al : Nat} {text : GoString} {width : UInt16} {o : Objects} {k : Option GoString → Objects → Chat ι ν ε α}
    (r : Option GoString) (o' : Objects) {es : List (CallEvent ι ν ε)} {e : Outcome α} {last : Objects}
    (h : Chats (k r o') es e last) : Chats (.align al text width o k) (.align al text width o r o' :: es) e last
  | len {o : Objects} {k : Option Int → Objects → Chat ι ν ε α} (r : Option Int) (o' : Objects)
    {es : List (CallEvent ι ν ε)} {e : Outcome α} {last : Objects} (h : Chats (k r o') es e last) :
    Chats (.len o k) (.len o r o' :: es) e last
  | get {i : Int} {o : Objects} {k : Option Slice → Objects → Chat ι ν ε α} (r : Option Slice) (o' : Objects)
    {es : List (CallEvent ι ν ε)} {e : Outcome α} {last : Objects} (h : Chats (k r o') es e last) :
    Chats (.get i o k) (.get i o r o' :: es) e last
  | write {text : GoString} {o : Objects} {k : Option Bool → Objects → Chat ι ν ε α} (r : Option Bool) (o' : Objects)
    {es : List (CallEvent ι ν ε)} {e : Outcome α} {last : Objects} (h : Chats (k r o') es e last) :
    Chats (.write text o k) (.write text o r o' :: es) e last

/-- User code that replies to every call and changes the objects. What it does may depend on all calls so far, the
last one first. -/
structure UserCode (ι ν ε : Type) where
  value : List (CallEvent ι ν ε) → Nat → ι → Objects → Reply ε ν × Objects
  format : List (CallEvent ι ν ε) → Nat → ι → ν → Objects → Reply ε GoString × Objects
  valueString : List (CallEvent ι ν ε) → Nat → GoString → ι → Objects → Reply ε GoString × Objects
  align : List (CallEvent ι ν ε) → Nat → GoString → UInt16 → Objects → Option GoString × Objects
  len : List (CallEvent ι ν ε) → Objects → Option Int × Objects := fun _ o => (some 0, o)
  get : List (CallEvent ι ν ε) → Int → Objects → Option Slice × Objects := fun _ _ o => (none, o)
  write : List (CallEvent ι ν ε) → GoString → Objects → Option Bool × Objects := fun _ _ o => (some false, o)

/-- After the calls `past`, all calls were replied to by the user code `u`. -/
inductive Told (u : UserCode ι ν ε) : List (CallEvent ι ν ε) → List (CallEvent ι ν ε) → Prop
  | nil (past : List (CallEvent ι ν ε)) : Told u past []
  | value (past : List (CallEvent ι ν ε)) (g : Nat) (item : ι) (o : Objects) (r : Reply ε ν) (o' : Objects)
    (es : List (CallEvent ι ν ε)) (hr : u.value past g item o = (r, o'))
    (h : Told u (.value g item o r o' :: past) es) : Told u past (.value g item o r o' :: es)
  | format (past : List (CallEvent ι ν ε)) (g : Nat) (item : ι) (v : ν) (o : Objects) (r : Reply ε GoString)
    (o' : Objects) (es : List (CallEvent ι ν ε)) (hr : u.format past g item v o = (r, o'))
    (h : Told u (.format g item v o r o' :: past) es) : Told u past (.format g item v o r o' :: es)
  | valueString (past : List (CallEvent ι ν ε)) (g : Nat) (name : GoString) (item : ι) (o : Objects)
    (r : Reply ε GoString) (o' : Objects) (es : List (CallEvent ι ν ε))
    (hr : u.valueString past g name item o = (r, o'))
    (h : Told u (.valueString g name item o r o' :: past) es) : Told u past (.valueString g name item o r o' :: es)
  | align (past : List (CallEvent ι ν ε)) (al : Nat) (text : GoString) (w : UInt16) (o : Objects)
    (r : Option GoString) (o' : Objects) (es : List (CallEvent ι ν ε)) (hr : u.align past al text w o = (r, o'))
    (h : Told u (.align al text w o r o' :: past) es) : Told u past (.align al text w o r o' :: es)
  | len (past : List (CallEvent ι ν ε)) (o : Objects) (r : Option Int) (o' : Objects) (es : List (CallEvent ι ν ε))
    (hr : u.len past o = (r, o')) (h : Told u (.len o r o' :: past) es) : Told u past (.len o r o' :: es)
  | get (past : List (CallEvent ι ν ε)) (i : Int) (o : Objects) (r : Option Slice) (o' : Objects)
    (es : List (CallEvent ι ν ε)) (hr : u.get past i o = (r, o')) (h : Told u (.get i o r o' :: past) es) :
    Told u past (.get i o r o' :: es)
  | write (past : List (CallEvent ι ν ε)) (text : GoString) (o : Objects) (r : Option Bool) (o' : Objects)
    (es : List (CallEvent ι ν ε)) (hr : u.write past text o = (r, o')) (h : Told u (.write text o r o' :: past) es) :
    Told u past (.write text o r o' :: es)

/-! ## What one call of `FormatItem` does -/

/-- A finished cell: the column, the getter asked for the value, the value, the objects after that, the getter
asked for the text, the text, the objects after that. -/
structure Finished (ν : Type) where
  column : Nat
  getter : Nat
  value : ν
  between : Objects
  formatter : Nat
  text : GoString
  after : Objects

/-- The two calls that made a cell. -/
def Finished.calls (c : Finished ν) (item : ι) (o : Objects) : List (CallEvent ι ν ε) :=
  [.value c.getter item o (.ok c.value) c.between,
    .format c.formatter item c.value c.between (.ok c.text) c.after]

/-- The column is the one that stands at position `i` when it is its turn; the getters are the ones it has
at the time of each call. -/
def Finished.Of (c : Finished ν) (s : Slice) (i : Nat) (o : Objects) : Prop :=
  o.element s.array (s.first + i) = some c.column ∧ (o.column c.column).getter = some c.getter ∧
    (c.between.column c.column).getter = some c.formatter

/-- The name under which the width of a cell is recorded: the one its column has when `Format` has returned. -/
def Finished.name (c : Finished ν) : GoString := (c.after.column c.column).name

/-- The objects when width `w` has been recorded for `name` in the map `cw`. -/
def noted (cw : Option Nat) (name : GoString) (w : UInt16) (o : Objects) : Objects :=
  { o with recorded := fun r k => if cw = some r ∧ k = name then max (o.recorded r k) w else o.recorded r k }

/-- Width `w` can be noted: there is a map, or there is nothing to note. -/
def CanNote (cw : Option Nat) (w : UInt16) : Prop := cw ≠ none ∨ w = 0

/-- The cells `cs` are made one after the other from position `i` on, their widths as measured when `Format` has
returned recorded in the map `cw`: their calls, and the objects in the end. -/
inductive Makes (cw : Option Nat) (item : ι) (s : Slice) :
    Nat → Objects → List (Finished ν) → List (CallEvent ι ν ε) → Objects → Prop
  | none (i : Nat) (o : Objects) : Makes cw item s i o [] [] o
  | one (i : Nat) (o : Objects) (c : Finished ν) (cs : List (Finished ν)) (es : List (CallEvent ι ν ε)) (o' : Objects)
    (hc : c.Of s i o) (hw : CanNote cw (c.after.answer i c.text))
    (h : Makes cw item s (i + 1) (noted cw c.name (c.after.answer i c.text) c.after) cs es o') :
    Makes cw item s i o (c :: cs) (c.calls item o ++ es) o'

/-- How the work on the column at position `i` ends if no cell is made. -/
inductive Stops (cw : Option Nat) (item : ι) (s : Slice) (i : Nat) (o : Objects) :
    List (CallEvent ι ν ε) → Outcome (Except ε (List GoString)) → Objects → Prop
  | nilColumn (h : o.element s.array (s.first + i) = none) :
    Stops cw item s i o [] (.panicked (.onNil .deref)) o
  | nilGetter (col : Nat) (h : o.element s.array (s.first + i) = some col) (hg : (o.column col).getter = none) :
    Stops cw item s i o [] (.panicked (.onNil .deref)) o
  | valueError (col g : Nat) (e : ε) (o' : Objects) (h : o.element s.array (s.first + i) = some col)
    (hg : (o.column col).getter = some g) :
    Stops cw item s i o [.value g item o (.error e) o'] (.returned (.error e)) o'
  | valuePanics (col g : Nat) (o' : Objects) (h : o.element s.array (s.first + i) = some col)
    (hg : (o.column col).getter = some g) :
    Stops cw item s i o [.value g item o .panicked o'] (.panicked .passedOn) o'
  | getterGone (col g : Nat) (v : ν) (o' : Objects) (h : o.element s.array (s.first + i) = some col)
    (hg : (o.column col).getter = some g) (hg' : (o'.column col).getter = none) :
    Stops cw item s i o [.value g item o (.ok v) o'] (.panicked (.onNil .deref)) o'
  | formatError (col g g' : Nat) (v : ν) (o' : Objects) (e : ε) (o'' : Objects)
    (h : o.element s.array (s.first + i) = some col) (hg : (o.column col).getter = some g)
    (hg' : (o'.column col).getter = some g') :
    Stops cw item s i o [.value g item o (.ok v) o', .format g' item v o' (.error e) o''] (.returned (.error e)) o''
  | formatPanics (col g g' : Nat) (v : ν) (o' o'' : Objects)
    (h : o.element s.array (s.first + i) = some col) (hg : (o.column col).getter = some g)
    (hg' : (o'.column col).getter = some g') :
    Stops cw item s i o [.value g item o (.ok v) o', .format g' item v o' .panicked o''] (.panicked .passedOn) o''
  | nilMap (c : Finished ν) (hc : c.Of s i o) (hw : ¬ CanNote cw (c.after.answer i c.text)) :
    Stops cw item s i o (c.calls item o) (.panicked (.onNil .mapWrite)) c.after

/-! ## The other methods -/

/-- `FormatItemBasic` from position `i` on: one call for each column that stands there when it is its turn, up to
the first that fails. The texts of those that did not fail, the calls, how it ends (`none` if all went well) and
the objects in the end. -/
inductive Collects (item : ι) (s : Slice) : Nat → Objects → List GoString → List (CallEvent ι ν ε) →
    Option (Outcome (Except ε GoString)) → Objects → Prop
  | all (i : Nat) (o : Objects) (h : i = s.len) : Collects item s i o [] [] none o
  | nilColumn (i : Nat) (o : Objects) (hi : i < s.len) (h : o.element s.array (s.first + i) = none) :
    Collects item s i o [] [] (some (.panicked (.onNil .deref))) o
  | nilGetter (i : Nat) (o : Objects) (col : Nat) (hi : i < s.len) (h : o.element s.array (s.first + i) = some col)
    (hg : (o.column col).getter = none) : Collects item s i o [] [] (some (.panicked (.onNil .deref))) o
  | fails (i : Nat) (o : Objects) (col g : Nat) (e : ε) (o' : Objects) (hi : i < s.len)
    (h : o.element s.array (s.first + i) = some col) (hg : (o.column col).getter = some g) :
    Collects item s i o [] [.valueString g (o.column col).name item o (.error e) o'] (some (.returned (.error e))) o'
  | panics (i : Nat) (o : Objects) (col g : Nat) (o' : Objects) (hi : i < s.len)
    (h : o.element s.array (s.first + i) = some col) (hg : (o.column col).getter = some g) :
    Collects item s i o [] [.valueString g (o.column col).name item o .panicked o'] (some (.panicked .passedOn)) o'
  | one (i : Nat) (o : Objects) (col g : Nat) (text : GoString) (o' : Objects) (texts : List GoString)
    (es : List (CallEvent ι ν ε)) (e : Option (Outcome (Except ε GoString))) (o'' : Objects) (hi : i < s.len)
    (h : o.element s.array (s.first + i) = some col) (hg : (o.column col).getter = some g)
    (rest : Collects item s (i + 1) o' texts es e o'') :
    Collects item s i o (text :: texts) (.valueString g (o.column col).name item o (.ok text) o' :: es) e o''

/-- The objects when `text` has been written to element `i` of the slice of strings. -/
def put (formatted : Slice) (i : Nat) (text : GoString) (o : Objects) : Objects :=
  { o with strings := fun a k => if a = formatted.array ∧ k = formatted.first + i then text else o.strings a k }

/-- `AlignFormattedItem` from position `i` on: one call for each column with an alignment that stands there when it
is its turn, with the text that stands in the slice and the width on record at that time. The reply is written
to the slice. -/
inductive Aligns (t : Nat) (formatted : Slice) (s : Slice) : Nat → Objects → List (CallEvent ι ν ε) →
    Outcome (Except (Nat × Nat) Slice) → Objects → Prop
  | all (i : Nat) (o : Objects) (h : i = s.len) : Aligns t formatted s i o [] (.returned (.ok formatted)) o
  | nilColumn (i : Nat) (o : Objects) (hi : i < s.len) (h : o.element s.array (s.first + i) = none) :
    Aligns t formatted s i o [] (.panicked (.onNil .deref)) o
  | unaligned (i : Nat) (o : Objects) (col : Nat) (es : List (CallEvent ι ν ε)) (e : Outcome (Except (Nat × Nat) Slice))
    (o' : Objects) (hi : i < s.len) (h : o.element s.array (s.first + i) = some col)
    (ha : (o.column col).alignment = none) (rest : Aligns t formatted s (i + 1) o es e o') :
    Aligns t formatted s i o es e o'
  | panics (i : Nat) (o : Objects) (col al : Nat) (w : UInt16) (o' : Objects) (hi : i < s.len)
    (h : o.element s.array (s.first + i) = some col) (ha : (o.column col).alignment = some al)
    (hw : ((o.widths t).map fun m => m (o.column col).name).getD 0 = w) :
    Aligns t formatted s i o [.align al (o.strings formatted.array (formatted.first + i)) w o none o']
      (.panicked .passedOn) o'
  | one (i : Nat) (o : Objects) (col al : Nat) (w : UInt16) (text : GoString) (o' : Objects)
    (es : List (CallEvent ι ν ε)) (e : Outcome (Except (Nat × Nat) Slice)) (o'' : Objects) (hi : i < s.len)
    (h : o.element s.array (s.first + i) = some col) (ha : (o.column col).alignment = some al)
    (hw : ((o.widths t).map fun m => m (o.column col).name).getD 0 = w)
    (rest : Aligns t formatted s (i + 1) (put formatted i text o') es e o'') :
    Aligns t formatted s i o
      (.align al (o.strings formatted.array (formatted.first + i)) w o (some text) o' :: es) e o''

/-! ## Nested calls -/

/-- No width recorded in any map is smaller. -/
def Grown (o o' : Objects) : Prop := ∀ r k, o.recorded r k ≤ o'.recorded r k

/-- `UpdateWidth` on table `t`, with the entries in the order in which Go happens to go through them. It ends
early if there is no map to write to. -/
inductive Updates (t : Nat) : List (GoString × UInt16) → Objects → Objects → Prop
  | nil (o : Objects) : Updates t [] o o
  | cons (name : GoString) (w : UInt16) (rest : List (GoString × UInt16)) (o o' : Objects) (hw : CanNote (o.widthMap t) w)
    (h : Updates t rest (noted (o.widthMap t) name w o) o') : Updates t ((name, w) :: rest) o o'
  | panics (name : GoString) (w : UInt16) (rest : List (GoString × UInt16)) (o : Objects) (hw : ¬ CanNote (o.widthMap t) w) :
    Updates t ((name, w) :: rest) o o

/-- Only what is open to user code has changed: not the entries of width maps. -/
def OpenOnly (o o' : Objects) : Prop := o'.recorded = o.recorded

mutual
/-- What user code can do to the objects: anything to those that are open to it, assigning whole tables included,
`UpdateWidth`, and calls of the methods of tables that return or panic, whose getters, alignments, lists and writers
are user code again; one after the other. -/
inductive Acts (ι ν ε : Type) : Objects → Objects → Prop
  | nothing (o : Objects) : Acts ι ν ε o o
  | changes (o o' o'' : Objects) (h : OpenOnly o o') (rest : Acts ι ν ε o' o'') : Acts ι ν ε o o''
  | updates (t : Nat) (entries : List (GoString × UInt16)) (o o' o'' : Objects) (h : Updates t entries o o')
    (rest : Acts ι ν ε o' o'') : Acts ι ν ε o o''
  | formats (t : Nat) (item : ι) (es : List (CallEvent ι ν ε)) (e : Outcome (Except ε (List GoString)))
    (o o' o'' : Objects) (h : Chats (formatItemR t item o) es e o') (hs : AllAct ι ν ε es)
    (rest : Acts ι ν ε o' o'') : Acts ι ν ε o o''
  | collects (t : Nat) (item : ι) (sep : GoString) (es : List (CallEvent ι ν ε)) (e : Outcome (Except ε GoString))
    (o o' o'' : Objects) (h : Chats (formatItemBasicR t item sep o) es e o') (hs : AllAct ι ν ε es)
    (rest : Acts ι ν ε o' o'') : Acts ι ν ε o o''
  | aligns (t : Nat) (formatted : Slice) (es : List (CallEvent ι ν ε)) (e : Outcome (Except (Nat × Nat) Slice))
    (o o' o'' : Objects) (h : Chats (alignItemR t formatted o) es e o') (hs : AllAct ι ν ε es)
    (rest : Acts ι ν ε o' o'') : Acts ι ν ε o o''
  | mergesHorizontal (t : Nat) (arg : Int) (sep : GoString) (compact : Bool) (fuel : Nat)
    (es : List (CallEvent ι ν ε)) (e : Outcome Unit) (o o' o'' : Objects)
    (h : Chats (mergeRowsHorizontalL t arg sep compact fuel o) es e o') (hs : AllAct ι ν ε es)
    (rest : Acts ι ν ε o' o'') : Acts ι ν ε o o''
  | mergesVertical (t : Nat) (arg : Int) (sep : GoString) (compact : Bool) (fuel : Nat)
    (es : List (CallEvent ι ν ε)) (e : Outcome Unit) (o o' o'' : Objects)
    (h : Chats (mergeRowsVerticalL t arg sep compact fuel o) es e o') (hs : AllAct ι ν ε es)
    (rest : Acts ι ν ε o' o'') : Acts ι ν ε o o''
/-- In every call, user code does what user code can do. -/
inductive AllAct (ι ν ε : Type) : List (CallEvent ι ν ε) → Prop
  | nil : AllAct ι ν ε []
  | cons (c : CallEvent ι ν ε) (es : List (CallEvent ι ν ε)) (h : Acts ι ν ε c.before c.after)
    (hs : AllAct ι ν ε es) : AllAct ι ν ε (c :: es)
end

/-! ## User code that leaves the table alone -/

/-- The reply of a getter that returned `r`. -/
def replyOf {ε α : Type} : Except ε α → Reply ε α
  | .ok a => .ok a
  | .error e => .error e

/-- Texts are measured under the settings `f`: they are in force, and no others were before. -/
def MeasuresBy (f : Flags) (o : Objects) : Prop := ∀ i s, o.answer i s = visualWidth f s

/-- The objects are the same, but texts may be measured differently. -/
def _root_.GoTable.Objects.ButAnswers (o o' : Objects) : Prop := o = { o' with answer := o.answer }

/-- Every text is measured under settings of `F`, not necessarily all under the same. -/
def AnswersBy (F : Flags → Prop) (o : Objects) : Prop := ∀ i s, ∃ f, F f ∧ o.answer i s = visualWidth f s

/-- The text has the same width under all settings of `F`. -/
def Stable (F : Flags → Prop) (s : GoString) : Prop := ∀ f g, F f → F g → visualWidth f s = visualWidth g s

/-- User code replies as the getters `G` do, starting in state `st` and ending in state `st'`, and leaves the objects
as they are. -/
inductive Quiet {σ : Type} (G : Nat → Getter σ ι ν ε) : σ → List (CallEvent ι ν ε) → σ → Prop
  | nil (st : σ) : Quiet G st [] st
  | value (g : Nat) (item : ι) (o : Objects) (st st' : σ) (es : List (CallEvent ι ν ε))
    (h : Quiet G ((G g).value item st).2 es st') :
    Quiet G st (.value g item o (replyOf ((G g).value item st).1) o :: es) st'
  | format (g : Nat) (item : ι) (v : ν) (o : Objects) (st st' : σ) (es : List (CallEvent ι ν ε))
    (h : Quiet G ((G g).format item v st).2 es st') :
    Quiet G st (.format g item v o (replyOf ((G g).format item v st).1) o :: es) st'

/-- The same, but settings and cache may have changed. -/
inductive QuietTable {σ : Type} (G : Nat → Getter σ ι ν ε) : σ → List (CallEvent ι ν ε) → σ → Prop
  | nil (st : σ) : QuietTable G st [] st
  | value (g : Nat) (item : ι) (o o' : Objects) (st st' : σ) (es : List (CallEvent ι ν ε)) (ho : o'.ButAnswers o)
    (h : QuietTable G ((G g).value item st).2 es st') :
    QuietTable G st (.value g item o (replyOf ((G g).value item st).1) o' :: es) st'
  | format (g : Nat) (item : ι) (v : ν) (o o' : Objects) (st st' : σ) (es : List (CallEvent ι ν ε))
    (ho : o'.ButAnswers o) (h : QuietTable G ((G g).format item v st).2 es st') :
    QuietTable G st (.format g item v o (replyOf ((G g).format item v st).1) o' :: es) st'

/-- A column as a value, with getters `G`. Alignment and titles do not matter to `FormatItem`. -/
def columnValue {σ : Type} (G : Nat → Getter σ ι ν ε) (c : ColumnObject) : Column σ ι ν ε :=
  { getter := G (c.getter.getD 0), alignment := none, name := c.name, title := [], shortTitle := [] }

/-- Table `t` as a value, if its columns are the elements of `s`. -/
def tableValue {σ : Type} (G : Nat → Getter σ ι ν ε) (o : Objects) (t : Nat) (s : Slice) : LiteralTable σ ι ν ε :=
  { columns := (List.range s.len).map fun i =>
      (o.element s.array (s.first + i)).map fun col => columnValue G (o.column col)
    columnWidth := o.widths t }

/-- An outcome, as that of a table as a value. -/
def endOfCall : Outcome (Except ε (List GoString)) → Option (FormatEnd ε)
  | .returned (.ok row) => some (.row row)
  | .returned (.error e) => some (.error e)
  | .panicked (.onNil p) => some (.panic p)
  | _ => none

end GoTable.Spec
