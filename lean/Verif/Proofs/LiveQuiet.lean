import Verif.Proofs.Live
/-!
# Proofs: merges whose user code leaves the table alone
-/

namespace GoTable
open Spec

variable {σ ι ν ε α β γ : Type}

/-- Objects that differ from `o` in the answers only, and there not for texts that are fine. -/
def Alike (f : Flags) (Ok : GoString → Prop) (o o1 : Objects) : Prop :=
  o1.ButAnswers o ∧ ∀ i s, Ok s → o1.answer i s = visualWidth f s

/-- If user code leaves the objects `o` alone, apart from settings and cache, and all rows consist of texts that are
fine, `p` does what `q` does. -/
inductive Sim (A : Nat → Alignment) (f : Flags) (Ok : GoString → Prop) (o : Objects) : Chat ι ν ε α → Talk α → Prop
  | ret (a : α) (o1 : Objects) (h : Alike f Ok o o1) : Sim A f Ok o (.ret a o1) (.ret a)
  | panic (p : Panic) (o1 : Objects) (h : Alike f Ok o o1) : Sim A f Ok o (.panic (.run p) o1) (.panic p)
  | unfinished (o1 : Objects) (h : Alike f Ok o o1) : Sim A f Ok o (.unfinished o1) .unfinished
  | len (o1 : Objects) (k : Option Int → Objects → Chat ι ν ε α) (k' : Int → Talk α) (h1 : Alike f Ok o o1)
    (h : ∀ n o2, Alike f Ok o o2 → Sim A f Ok o (k (some n) o2) (k' n)) : Sim A f Ok o (.len o1 k) (.len k')
  | get (i : Int) (o1 : Objects) (k : Option Slice → Objects → Chat ι ν ε α) (k' : List GoString → Talk α)
    (h1 : Alike f Ok o o1) (h : ∀ s o2, Alike f Ok o o2 → (∀ x ∈ rowOf o s, Ok x) →
      Sim A f Ok o (k (some s) o2) (k' (rowOf o s))) : Sim A f Ok o (.get i o1 k) (.get i k')
  | write (text : GoString) (o1 : Objects) (k : Option Bool → Objects → Chat ι ν ε α) (k' : Bool → Talk α)
    (h1 : Alike f Ok o o1) (h : ∀ b o2, Alike f Ok o o2 → Sim A f Ok o (k (some b) o2) (k' b)) :
    Sim A f Ok o (.write text o1 k) (.write text k')
  | align (al : Nat) (text : GoString) (w : UInt16) (o1 : Objects) (k : Option GoString → Objects → Chat ι ν ε α)
    (q : Talk α) (h1 : Alike f Ok o o1) (h : ∀ o2, Alike f Ok o o2 → Sim A f Ok o (k (some (A al text w)) o2) q) :
    Sim A f Ok o (.align al text w o1 k) q

variable {A : Nat → Alignment} {f : Flags} {Ok : GoString → Prop} {o : Objects}

theorem sim_bind {p : Chat ι ν ε α} {q : Talk α} {g : α → Objects → Chat ι ν ε β} {g' : α → Talk β}
    (h : Sim A f Ok o p q) (hg : ∀ a o1, Alike f Ok o o1 → Sim A f Ok o (g a o1) (g' a)) :
    Sim A f Ok o (p.bind g) (q.bind g') := by
  induction h with
  | ret a o1 h => exact hg a o1 h
  | panic p o1 h => exact .panic p o1 h
  | unfinished o1 h => exact .unfinished o1 h
  | len o1 k k' h1 h ih => exact .len _ _ _ h1 fun n o2 h2 => ih n o2 h2
  | get i o1 k k' h1 h ih => exact .get _ _ _ _ h1 fun s o2 h2 h3 => ih s o2 h2 h3
  | write text o1 k k' h1 h ih => exact .write _ _ _ _ h1 fun b o2 h2 => ih b o2 h2
  | align al text w o1 k q h1 h ih => exact .align _ _ _ _ _ _ h1 fun o2 h2 => ih o2 h2

/-- The same for parts of methods. -/
def LSim (A : Nat → Alignment) (f : Flags) (Ok : GoString → Prop) (o : Objects) (p : Live ι ν ε α) (q : Talk α) : Prop :=
  ∀ o1, Alike f Ok o o1 → Sim A f Ok o (p o1) q

theorem lsim_bind {p : Live ι ν ε α} {q : Talk α} {g : α → Live ι ν ε β} {g' : α → Talk β} (h : LSim A f Ok o p q)
    (hg : ∀ a, LSim A f Ok o (g a) (g' a)) : LSim A f Ok o (p >>= g) (q >>= g') := fun o1 h1 => sim_bind (h o1 h1) hg

theorem lsim_pure (a : α) : LSim A f Ok o (pure a : Live ι ν ε α) (pure a) := fun o1 h1 => .ret a o1 h1
theorem lsim_stop (p : Panic) : LSim A f Ok o (stop (.run p) : Live ι ν ε α) (.panic p) := fun o1 h1 => .panic p o1 h1

theorem lsim_mapM {p : γ → Live ι ν ε α} {q : γ → Talk α} (h : ∀ x, LSim A f Ok o (p x) (q x)) (l : List γ) :
    LSim A f Ok o (l.mapM p) (l.mapM q) := by
  induction l with
  | nil => rw [List.mapM_nil, List.mapM_nil]; exact lsim_pure _
  | cons x xs ih =>
    rw [List.mapM_cons, List.mapM_cons]
    exact lsim_bind (h x) fun a => lsim_bind ih fun as => lsim_pure _

theorem lsim_callLen : LSim A f Ok o (callLen : Live ι ν ε Int) askLen :=
  fun _ h1 => .len _ _ _ h1 fun _ _ h2 => .ret _ _ h2
theorem lsim_callWrite (text : GoString) : LSim A f Ok o (callWrite text : Live ι ν ε Bool) (askWrite text) :=
  fun _ h1 => .write _ _ _ _ h1 fun _ _ h2 => .ret _ _ h2

/-- One call of `Get`, and what follows. -/
theorem lsim_get {i : Int} {g : Slice → Live ι ν ε β} {g' : List GoString → Talk β}
    (h : ∀ s, (∀ x ∈ rowOf o s, Ok x) → LSim A f Ok o (g s) (g' (rowOf o s))) :
    LSim A f Ok o (callGet i >>= g) (askGet i >>= g') :=
  fun _ h1 => .get _ _ _ _ h1 fun s o2 h2 h3 => h s h3 o2 h2

theorem lsim_ofExcept {p : Live ι ν ε α} {x : Except Panic α}
    (h : ∀ o1, o1.ButAnswers o → p o1 = match x with | .ok a => .ret a o1 | .error q => .panic (.run q) o1) :
    LSim A f Ok o p (Talk.ofExcept x) := by
  intro o1 h1
  rw [h o1 h1.1]
  cases x with
  | ok a => exact .ret a o1 h1
  | error q => exact .panic q o1 h1

theorem rowOf_get? (o : Objects) (s : Slice) (c : Nat) : (rowOf o s)[c]? = s.get? o.strings c := by
  unfold rowOf Slice.get?
  by_cases h : c < s.len
  · rw [if_pos h, List.getElem?_map, List.getElem?_range h]; rfl
  · rw [if_neg h, List.getElem?_eq_none_iff, List.length_map, List.length_range]; omega

/-- Reading a cell of a row whose texts are fine. -/
theorem lsim_cell {s : Slice} {c : Nat} (hs : ∀ x ∈ rowOf o s, Ok x) {g : GoString → Live ι ν ε β}
    {g' : GoString → Talk β} (hg : ∀ text, Ok text → LSim A f Ok o (g text) (g' text)) :
    LSim A f Ok o (cellNow s c >>= g) (Talk.ofExcept (cellAt (rowOf o s) c) >>= g') := by
  intro o1 h1
  have ho : o1.strings = o.strings := by rw [h1.1]
  show Sim A f Ok o ((cellNow s c o1).bind g) _
  unfold cellNow cellAt
  have hr := rowOf_get? o s c
  rw [ho, ← hr]
  cases hx : (rowOf o s)[c]? with
  | none => exact .panic _ _ h1
  | some x => exact hg x (hs x (List.mem_of_getElem? hx)) o1 h1

/-- Reading the columns. -/
theorem lsim_columns {t sp : Nat} (h : o.spec t = some sp) {g : Slice → Live ι ν ε β} {q : Talk β}
    (hg : LSim A f Ok o (g (o.columns sp)) q) : LSim A f Ok o (columnsNow t >>= g) q := by
  intro o1 h1
  have hs : o1.spec t = some sp := by rw [h1.1]; exact h
  have hc : o1.columns = o.columns := by rw [h1.1]
  show Sim A f Ok o ((columnsNow t o1).bind g) q
  rw [columnsNow_some hs, hc]
  exact hg o1 h1

theorem lsim_column {s : Slice} {i col : Nat} (h : o.element s.array (s.first + i) = some col)
    {g : ColumnObject → Live ι ν ε β} {q : Talk β} (hg : LSim A f Ok o (g (o.column col)) q) :
    LSim A f Ok o (columnNow s i >>= g) q := by
  intro o1 h1
  have hs : o1.element s.array (s.first + i) = some col := by rw [h1.1]; exact h
  have hc : o1.column = o.column := by rw [h1.1]
  show Sim A f Ok o ((columnNow s i o1).bind g) q
  rw [show (columnNow s i : Live ι ν ε _) o1 = .ret (o.column col) o1 from by simp only [columnNow, hs, hc]]
  exact hg o1 h1

theorem lsim_here {g : Objects → Live ι ν ε β} {q : Talk β} (hg : ∀ o1, Alike f Ok o o1 → LSim A f Ok o (g o1) q) :
    LSim A f Ok o (here >>= g) q := fun o1 h1 => hg o1 h1 o1 h1

section table
variable {G : Nat → Getter σ ι ν ε} {t sp : Nat} {cols : List Nat}

theorem seen_length : (tableSeen G A o t cols).columns.length = cols.length := by simp [tableSeen]

theorem lsim_widthTable (hsp : o.spec t = some sp) (hl : (o.columns sp).len = cols.length)
    (he : ∀ i, i < cols.length → o.element (o.columns sp).array ((o.columns sp).first + i) = cols[i]?) (c j : Nat) :
    LSim A f Ok o (getWidthTableL t c j : Live ι ν ε UInt16)
      (Talk.ofExcept (getWidthTable (tableSeen G A o t cols) c j)) := by
  unfold getWidthTableL
  refine lsim_columns hsp ?_
  by_cases hc : c < (o.columns sp).len
  · rw [if_pos hc]
    have hc' : c < cols.length := by omega
    have := he c hc'
    rw [List.getElem?_eq_getElem hc'] at this
    refine lsim_column this ?_
    refine lsim_here ?_
    unfold getWidthTable tableSeen
    simp only [List.getElem?_map, List.getElem?_eq_getElem hc', Option.map_some]
    intro o1 h1
    have hw : o1.widths = o.widths := by rw [h1.1]; rfl
    rw [hw, readWidth_eq]
    exact fun _ h1 => .ret _ _ h1
  · rw [if_neg hc]
    unfold getWidthTable tableSeen
    simp only [List.getElem?_map, List.getElem?_eq_none_iff.mpr (show cols.length ≤ c by omega), Option.map_none]
    exact fun _ h1 => .panic _ _ h1

theorem lsim_widthCompact (ws : List UInt16) (n c j : Nat) :
    LSim A f Ok o (getWidthCompactL ws n c j : Live ι ν ε UInt16) (Talk.ofExcept (getWidthCompact ws n c j)) := by
  refine lsim_ofExcept fun o1 _ => ?_
  unfold getWidthCompactL getWidthCompact widthAt
  cases ws[j * n + c]? <;> rfl

theorem ofExcept_bind (x : Except Panic α) (g : α → Except Panic β) :
    Talk.ofExcept (x >>= g) = Talk.ofExcept x >>= fun a => Talk.ofExcept (g a) := by
  cases x <;> rfl

theorem lsim_render (gwL : Nat → Nat → Live ι ν ε UInt16) (gwT : Nat → Nat → Except Panic UInt16)
    (hw : ∀ c j, LSim A f Ok o (gwL c j) (Talk.ofExcept (gwT c j)))
    (hl : (o.columns sp).len = cols.length)
    (he : ∀ i, i < cols.length → o.element (o.columns sp).array ((o.columns sp).first + i) = cols[i]?)
    (j : Nat) (row : Slice) (hrow : ∀ x ∈ rowOf o row, Ok x) (c : Nat) (hc : c ≤ cols.length) :
    LSim A f Ok o (renderCellsL gwL j cols.length row (o.columns sp) c)
      (Talk.ofExcept (renderCells f gwT j (rowOf o row) ((tableSeen G A o t cols).columns.drop c) c)) := by
  generalize hd : cols.length - c = d
  induction d generalizing c with
  | zero =>
    rw [renderCellsL, if_neg (by omega), List.drop_eq_nil_of_le (by rw [seen_length]; omega)]
    rw [show cols.length - c = 0 by omega]
    exact fun _ h1 => .ret _ _ h1
  | succ d ih =>
    have hc' : c < cols.length := by omega
    have hcol := he c hc'
    rw [List.getElem?_eq_getElem hc'] at hcol
    rw [renderCellsL, if_pos (by omega), List.drop_eq_getElem_cons (by rw [seen_length]; omega)]
    refine lsim_column hcol ?_
    simp only [renderCells, ofExcept_bind]
    refine lsim_cell hrow fun text htext => ?_
    refine lsim_bind (hw c j) fun w => ?_
    simp only [if_pos hc']
    have rest : ∀ x, LSim A f Ok o (renderCellsL gwL j cols.length row (o.columns sp) (c + 1) >>= fun rest => pure (x :: rest))
        (Talk.ofExcept (renderCells f gwT j (rowOf o row) ((tableSeen G A o t cols).columns.drop (c + 1)) (c + 1)) >>=
          fun rest => Talk.ofExcept (pure (x :: rest))) :=
      fun x => lsim_bind (ih (c + 1) (by omega) (by omega)) fun rest => lsim_pure _
    have hal : ((tableSeen G A o t cols).columns[c]'(by rw [seen_length]; omega)).alignment =
        (o.column cols[c]).alignment.map A := by simp [tableSeen]
    rw [hal]
    cases (o.column cols[c]).alignment with
    | none =>
      refine lsim_here fun o1 h1 => ?_
      rw [h1.2 c text htext]
      exact rest _
    | some al => exact fun o1 h1 => .align _ _ _ _ _ _ h1 fun o2 h2 => rest _ o2 h2

theorem lsim_line (gwL : Nat → Nat → Live ι ν ε UInt16) (gwT : Nat → Nat → Except Panic UInt16)
    (hw : ∀ c j, LSim A f Ok o (gwL c j) (Talk.ofExcept (gwT c j))) (hsp : o.spec t = some sp)
    (hl : (o.columns sp).len = cols.length)
    (he : ∀ i, i < cols.length → o.element (o.columns sp).array ((o.columns sp).first + i) = cols[i]?)
    (n : Int) (index : Nat → Nat) (g j : Nat) :
    LSim A f Ok o (lineGroupsL t n gwL cols.length index g j)
      (lineGroupsT f (tableSeen G A o t cols) n gwT index g j) := by
  generalize hd : g - j = d
  induction d generalizing j with
  | zero =>
    rw [lineGroupsL, lineGroupsT, if_neg (by omega), if_neg (by omega)]
    exact fun _ h1 => .ret _ _ h1
  | succ d ih =>
    have hj : j < g := by omega
    rw [lineGroupsL, lineGroupsT, if_pos hj, if_pos hj]
    by_cases hi : (index j : Int) ≥ n
    · simp only [hi, if_true]
      exact fun _ h1 => .ret _ _ h1
    · simp only [hi, if_false]
      refine lsim_get fun row hrow => ?_
      refine lsim_columns hsp ?_
      exact lsim_bind (lsim_render gwL gwT hw hl he j row hrow 0 (Nat.zero_le _)) fun cell =>
        lsim_bind (ih (j + 1) (by omega)) fun rest => lsim_pure _

theorem lsim_writeLines (sep : GoString) (p : Nat → Live ι ν ε (List GoString)) (q : Nat → Talk (List GoString))
    (h : ∀ i, LSim A f Ok o (p i) (q i)) (n i : Nat) : LSim A f Ok o (writeLinesL sep p n i) (writeLinesT sep q n i) := by
  generalize hd : n - i = d
  induction d generalizing i with
  | zero =>
    rw [writeLinesL, writeLinesT, if_neg (by omega), if_neg (by omega)]
    exact fun _ h1 => .ret _ _ h1
  | succ d ih =>
    rw [writeLinesL, writeLinesT, if_pos (by omega), if_pos (by omega)]
    refine lsim_bind (h i) fun parts => lsim_bind (lsim_callWrite _) fun b => ?_
    cases b with
    | true => exact fun _ h1 => .panic _ _ h1
    | false => exact ih (i + 1) (by omega)

theorem lsim_maxH (n : Int) (c g k : Nat) (mw : UInt16) :
    LSim A f Ok o (maxCellWidthHL n c g k mw : Live ι ν ε UInt16) (maxCellWidthHT f n c g k mw) := by
  fun_induction maxCellWidthHT f n c g k mw with
  | case1 k mw h ih =>
    rw [maxCellWidthHL, dif_pos h]
    refine lsim_get fun row hrow => lsim_cell hrow fun text htext => ?_
    refine lsim_here fun o1 h1 => ?_
    rw [h1.2 c text htext]
    exact ih text
  | case2 k mw h =>
    rw [maxCellWidthHL, dif_neg h]
    exact fun _ h1 => .ret _ _ h1

theorem lsim_maxV (c : Nat) (stop k : Int) (mw : UInt16) :
    LSim A f Ok o (maxCellWidthVL c stop k mw : Live ι ν ε UInt16) (maxCellWidthVT f c stop k mw) := by
  fun_induction maxCellWidthVT f c stop k mw with
  | case1 k mw h ih =>
    rw [maxCellWidthVL, if_pos h]
    refine lsim_get fun row hrow => lsim_cell hrow fun text htext => ?_
    refine lsim_here fun o1 h1 => ?_
    rw [h1.2 c text htext]
    exact ih text
  | case2 k mw h =>
    rw [maxCellWidthVL, if_neg h]
    exact fun _ h1 => .ret _ _ h1

theorem lsim_measureH (hsp : o.spec t = some sp) (hl : (o.columns sp).len = cols.length) (g : Nat) :
    LSim A f Ok o (mergedRowsWidthHL t g : Live ι ν ε _) (mergedRowsWidthHT f (tableSeen G A o t cols) g) := by
  unfold mergedRowsWidthHL mergedRowsWidthHT
  refine lsim_bind lsim_callLen fun n => lsim_columns hsp ?_
  rw [Table.columnCount, seen_length, hl]
  exact lsim_bind (lsim_mapM (fun j => lsim_mapM (fun c => lsim_maxH n c g j 0) _) _) fun rows => lsim_pure _

theorem lsim_measureV (hsp : o.spec t = some sp) (hl : (o.columns sp).len = cols.length) (g : Nat) :
    LSim A f Ok o (mergedRowsWidthVL t g : Live ι ν ε _) (mergedRowsWidthVT f (tableSeen G A o t cols) g) := by
  unfold mergedRowsWidthVL mergedRowsWidthVT
  refine lsim_bind lsim_callLen fun n => lsim_columns hsp ?_
  rw [Table.columnCount, seen_length, hl]
  simp only
  by_cases h1 : lineCountT n g = 0
  · simp only [h1, if_true]; exact fun _ h1 => .panic _ _ h1
  · simp only [h1, if_false]
    by_cases h2 : (g : Int) > (n - 1).tdiv (lineCountT n g) + 1
    · simp only [h2, if_true]; exact fun _ h1 => .ret _ _ h1
    · simp only [h2, if_false]
      exact lsim_bind (lsim_mapM (fun j => lsim_mapM (fun c => lsim_maxV c _ _ 0) _) _) fun rows => lsim_pure _

theorem lsim_seekH (hsp : o.spec t = some sp) (hl : (o.columns sp).len = cols.length) (mw margin : UInt16)
    (g0 fuel extra : Nat) (cw : List UInt16) :
    LSim A f Ok o (compactLoopHL t cols.length mw margin g0 fuel extra cw : Live ι ν ε _)
      (compactLoopHT f (tableSeen G A o t cols) mw margin g0 fuel extra cw) := by
  induction fuel generalizing extra cw with
  | zero => exact fun _ h1 => .unfinished _ h1
  | succ fuel ih =>
    rw [compactLoopHL, compactLoopHT]
    refine lsim_bind (lsim_measureH hsp hl _) fun cw' => ?_
    rw [Table.columnCount, seen_length]
    by_cases h : compactTotal margin (UInt16.ofNat cols.length) (g0 + extra + 1) cw' > mw
    · rw [if_pos h, if_pos h]; exact fun _ h1 => .ret _ _ h1
    · rw [if_neg h, if_neg h]; exact ih _ _

theorem lsim_seekV (hsp : o.spec t = some sp) (hl : (o.columns sp).len = cols.length) (mw margin : UInt16)
    (g0 fuel extra : Nat) (cw : List UInt16) :
    LSim A f Ok o (compactLoopVL t cols.length mw margin g0 fuel extra cw : Live ι ν ε _)
      (compactLoopVT f (tableSeen G A o t cols) mw margin g0 fuel extra cw) := by
  induction fuel generalizing extra cw with
  | zero => exact fun _ h1 => .unfinished _ h1
  | succ fuel ih =>
    rw [compactLoopVL, compactLoopVT]
    refine lsim_bind (lsim_measureV hsp hl _) fun r => ?_
    cases r with
    | none => exact fun _ h1 => .ret _ _ h1
    | some cw' =>
      rw [Table.columnCount, seen_length]
      by_cases h : compactTotal margin (UInt16.ofNat cols.length) (g0 + extra + 1) cw' > mw
      · simp only [if_pos h]; exact fun _ h1 => .ret _ _ h1
      · simp only [if_neg h]; exact ih _ _

theorem lsim_initial (hsp : o.spec t = some sp) (hl : (o.columns sp).len = cols.length)
    (he : ∀ i, i < cols.length → o.element (o.columns sp).array ((o.columns sp).first + i) = cols[i]?) (arg : Int)
    (sepLen : Nat) : LSim A f Ok o (initialGroupCountL t (maxWidthOf arg) (u16 sepLen) : Live ι ν ε Nat)
      (Talk.ofExcept (initialGroupCount (tableSeen G A o t cols) (maxWidthOf arg) (u16 sepLen))) := by
  have hname : ∀ i (hi : i < cols.length), nameAt o (o.columns sp) i = some (o.column cols[i]).name := by
    intro i hi
    unfold nameAt
    rw [he i hi, List.getElem?_eq_getElem hi]
    rfl
  have hp : pitchNow t o (o.columns sp) sepLen = pitch (tableSeen G A o t cols) sepLen := by
    unfold pitchNow pitch
    rw [seen_length, hl]
    congr 2
    refine List.ext_getElem (by simp [tableSeen]) fun i h1 h2 => ?_
    have hi : i < cols.length := by simpa using h1
    simp only [List.getElem_map, List.getElem_range, tableSeen, columnValue]
    rw [hname i hi]
    have : ∀ (m : Option WidthMap) (x : GoString), ((m.bind fun a => Option.map (fun name => a name) (some x)).getD 0).toNat =
        ((Option.map (fun m : WidthMap => m x) m).getD 0).toNat := by
      intro m x
      cases m <;> rfl
    exact this _ _
  have key : ∀ a, _ := fun a =>
    initialGroupCountL_eq (ι := ι) (ν := ν) (ε := ε) t arg sepLen sp { o with answer := a } hsp
  have hn : ∀ j, j < (o.columns sp).len → nameAt o (o.columns sp) j ≠ none := by
    intro j hj
    rw [hname j (by omega)]
    simp
  refine lsim_ofExcept fun o1 h1 => ?_
  rw [show o1 = { o with answer := o1.answer } from h1]
  have key := key o1.answer
  have hp' : pitchNow t { o with answer := o1.answer } (o.columns sp) sepLen = pitch (tableSeen G A o t cols) sepLen := hp
  by_cases h0 : pitchNow t o (o.columns sp) sepLen % 65536 = 0
  · rw [(key.2 hn).1 h0, initialGroupCount_zero _ _ _ (hp ▸ h0)]
  · rw [(key.2 hn).2 h0, initialGroupCount_ok _ _ _ (hp ▸ h0), hp']

theorem lsim_printH (gwL : Nat → Nat → Live ι ν ε UInt16) (gwT : Nat → Nat → Except Panic UInt16)
    (hw : ∀ c j, LSim A f Ok o (gwL c j) (Talk.ofExcept (gwT c j))) (hsp : o.spec t = some sp)
    (hl : (o.columns sp).len = cols.length)
    (he : ∀ i, i < cols.length → o.element (o.columns sp).array ((o.columns sp).first + i) = cols[i]?) (sep : GoString)
    (g : Nat) : LSim A f Ok o (printHL t sep g gwL cols.length) (printHT f (tableSeen G A o t cols) sep g gwT) :=
  lsim_bind lsim_callLen fun n => lsim_writeLines _ _ _ (fun _ => lsim_line gwL gwT hw hsp hl he n _ _ _) _ _

theorem lsim_printV (gwL : Nat → Nat → Live ι ν ε UInt16) (gwT : Nat → Nat → Except Panic UInt16)
    (hw : ∀ c j, LSim A f Ok o (gwL c j) (Talk.ofExcept (gwT c j))) (hsp : o.spec t = some sp)
    (hl : (o.columns sp).len = cols.length)
    (he : ∀ i, i < cols.length → o.element (o.columns sp).array ((o.columns sp).first + i) = cols[i]?) (sep : GoString)
    (g : Nat) : LSim A f Ok o (printVL t sep g gwL cols.length) (printVT f (tableSeen G A o t cols) sep g gwT) :=
  lsim_bind lsim_callLen fun n => lsim_writeLines _ _ _ (fun _ => lsim_line gwL gwT hw hsp hl he n _ _ _) _ _

theorem lsim_mergeH (h : HasColumns o t cols) (arg : Int) (sep : GoString) (compact : Bool) (fuel : Nat) :
    LSim A f Ok o (mergeRowsHorizontalL t arg sep compact fuel : Live ι ν ε Unit)
      (mergeRowsHorizontalT f (tableSeen G A o t cols) arg sep compact fuel) := by
  obtain ⟨sp, hsp, hl, he⟩ := h
  unfold mergeRowsHorizontalL mergeRowsHorizontalT
  refine lsim_columns hsp ?_
  rw [hl]
  refine lsim_bind (lsim_initial hsp hl he arg sep.length) fun g => ?_
  have hT := lsim_printH (G := G) _ _ (lsim_widthTable (A := A) (f := f) (Ok := Ok) (G := G) hsp hl he) hsp hl he sep
  cases compact with
  | false => exact hT g
  | true =>
    refine lsim_bind ?_ fun r => ?_
    · unfold compactCalcHL
      refine lsim_columns hsp ?_
      rw [hl]
      exact lsim_seekH hsp hl _ _ _ _ _ _
    · rw [Table.columnCount, seen_length]
      by_cases hr : r.1 > 0
      · rw [if_pos hr, if_pos hr]
        exact lsim_printH (G := G) _ _ (lsim_widthCompact r.2 cols.length) hsp hl he sep _
      · rw [if_neg hr, if_neg hr]
        exact hT g

theorem lsim_mergeV (h : HasColumns o t cols) (arg : Int) (sep : GoString) (compact : Bool) (fuel : Nat) :
    LSim A f Ok o (mergeRowsVerticalL t arg sep compact fuel : Live ι ν ε Unit)
      (mergeRowsVerticalT f (tableSeen G A o t cols) arg sep compact fuel) := by
  obtain ⟨sp, hsp, hl, he⟩ := h
  unfold mergeRowsVerticalL mergeRowsVerticalT
  refine lsim_columns hsp ?_
  rw [hl]
  refine lsim_bind (lsim_initial hsp hl he arg sep.length) fun g => ?_
  have hT := lsim_printV (G := G) _ _ (lsim_widthTable (A := A) (f := f) (Ok := Ok) (G := G) hsp hl he) hsp hl he sep
  cases compact with
  | false => exact hT g
  | true =>
    refine lsim_bind ?_ fun r => ?_
    · unfold compactCalcVL
      refine lsim_columns hsp ?_
      rw [hl]
      exact lsim_seekV hsp hl _ _ _ _ _ _
    · rw [Table.columnCount, seen_length]
      by_cases hr : r.1 > 0
      · rw [if_pos hr, if_pos hr]
        exact lsim_printV (G := G) _ _ (lsim_widthCompact r.2 cols.length) hsp hl he sep _
      · rw [if_neg hr, if_neg hr]
        exact hT g

end table

/-- What is said to list and writer is the same. -/
theorem sim_talks {p : Chat ι ν ε α} {q : Talk α} (h : Sim A f Ok o p q) {es : List (CallEvent ι ν ε)}
    {e : Outcome α} {o' : Objects} (hc : Chats p es e o') (hq : LeavesTable A es)
    (ha : ∀ ev ∈ es, (∀ i s, Ok s → ev.before.answer i s = visualWidth f s) →
      ∀ i s, Ok s → ev.after.answer i s = visualWidth f s)
    (hr : ∀ i before row after, CallEvent.get i before (some row) after ∈ es → ∀ x ∈ rowOf o row, Ok x) :
    o'.ButAnswers o ∧ ∃ e', Talks q (heard o es) e' ∧ e = outcomeOf e' := by
  have alike : ∀ {o1 o2 : Objects}, Alike f Ok o o1 → o2.ButAnswers o1 →
      (∀ i s, Ok s → o2.answer i s = visualWidth f s) → Alike f Ok o o2 := by
    intro o1 o2 h1 h2 h3
    refine ⟨?_, h3⟩
    unfold Objects.ButAnswers at *
    rw [h2, h1.1]
  induction h generalizing es with
  | ret a o1 h => cases hc; exact ⟨h.1, _, .ret a, rfl⟩
  | panic p o1 h => cases hc; exact ⟨h.1, _, .panic p, rfl⟩
  | unfinished o1 h => cases hc; exact ⟨h.1, _, .unfinished, rfl⟩
  | len o1 k k' h1 h ih =>
    cases hc with | len r o2 hc => ?_
    obtain ⟨ho, hy⟩ := hq _ (List.mem_cons_self ..)
    have h2 := alike h1 ho (ha _ (List.mem_cons_self ..) h1.2)
    cases r with
    | none => exact absurd rfl hy
    | some n =>
      obtain ⟨h1, e', h2, h3⟩ := ih n o2 h2 hc (fun ev hev => hq ev (List.mem_cons_of_mem _ hev))
        (fun ev hev => ha ev (List.mem_cons_of_mem _ hev)) fun i b row a hm => hr i b row a (List.mem_cons_of_mem _ hm)
      exact ⟨h1, e', .len n h2, h3⟩
  | get i o1 k k' h1 h ih =>
    cases hc with | get r o2 hc => ?_
    obtain ⟨ho, hy⟩ := hq _ (List.mem_cons_self ..)
    have h2 := alike h1 ho (ha _ (List.mem_cons_self ..) h1.2)
    cases r with
    | none => exact absurd rfl hy
    | some s =>
      obtain ⟨h1, e', h2, h3⟩ := ih s o2 h2 (hr _ _ _ _ (List.mem_cons_self ..)) hc
        (fun ev hev => hq ev (List.mem_cons_of_mem _ hev))
        (fun ev hev => ha ev (List.mem_cons_of_mem _ hev)) fun i b row a hm => hr i b row a (List.mem_cons_of_mem _ hm)
      exact ⟨h1, e', .get _ _ h2, h3⟩
  | write text o1 k k' h1 h ih =>
    cases hc with | write r o2 hc => ?_
    obtain ⟨ho, hy⟩ := hq _ (List.mem_cons_self ..)
    have h2 := alike h1 ho (ha _ (List.mem_cons_self ..) h1.2)
    cases r with
    | none => exact absurd rfl hy
    | some b =>
      obtain ⟨h1, e', h2, h3⟩ := ih b o2 h2 hc (fun ev hev => hq ev (List.mem_cons_of_mem _ hev))
        (fun ev hev => ha ev (List.mem_cons_of_mem _ hev)) fun i b row a hm => hr i b row a (List.mem_cons_of_mem _ hm)
      exact ⟨h1, e', .write _ _ h2, h3⟩
  | align al text w o1 k q h1 h ih =>
    cases hc with | align r o2 hc => ?_
    obtain ⟨ho, hy⟩ := hq _ (List.mem_cons_self ..)
    have h2 := alike h1 ho (ha _ (List.mem_cons_self ..) h1.2)
    obtain rfl := hy
    have := ih o2 h2 hc (fun ev hev => hq ev (List.mem_cons_of_mem _ hev))
        (fun ev hev => ha ev (List.mem_cons_of_mem _ hev)) fun i b row a hm => hr i b row a (List.mem_cons_of_mem _ hm)
    exact this

/-- User code that leaves everything alone, settings and cache included. -/
theorem talks_alone {p : Objects → Chat ι ν ε α} {q : Talk α} (h : LSim A f (fun _ => True) o p q)
    {es : List (CallEvent ι ν ε)} {e : Outcome α} {o' : Objects} (hch : Chained o es o') (hm : MeasuresBy f o)
    (hc : Chats (p o) es e o') (hq : LeavesAlone A es) :
    o' = o ∧ ∃ e', Talks q (heard o es) e' ∧ e = outcomeOf e' := by
  have ho : o' = o := by
    clear hc hm h
    induction es generalizing o with
    | nil => cases hch; rfl
    | cons ev es ih =>
      cases hch with | cons _ _ _ _ hb hch => ?_
      rw [ih hch fun ev hev => hq ev (List.mem_cons_of_mem _ hev), (hq ev (List.mem_cons_self ..)).1, hb]
  refine ⟨ho, (sim_talks (h o ⟨rfl, fun i s _ => hm i s⟩) hc (fun ev hev => ⟨?_, (hq ev hev).2⟩)
    (fun ev hev hb => (hq ev hev).1 ▸ hb) fun _ _ _ _ _ _ _ => trivial).2⟩
  rw [(hq ev hev).1]
  rfl

end GoTable
