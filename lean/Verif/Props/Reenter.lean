import Verif.Proofs.Live
/-!
# Getters and alignments that use the table they are called from

`Chats p es e o'` tells that the method `p` can make the calls `es` of user code, with the replies and the effects
recorded there, and then end with `e`, leaving the objects `o'`. Replies and effects are arbitrary.
-/

namespace GoTable
open Spec

variable {ι ν ε α : Type}

/-! ## C80 -/

/-- C80. The calls `FormatItem` makes, whatever its getters do. The slice of columns is the one the table has when it
is called. For each position in turn the column that stands there at that time is asked for a value and then for
a text, with the getter it has at the time of each call; the width of the text is recorded under the name the
column has then, in the map the table had when it was called. This goes on to the end, or to the first column at
which it stops. There are no other runs, and all of these are possible. -/
theorem C80_calls (t : Nat) (item : ι) (o : Objects) (es : List (CallEvent ι ν ε))
    (e : Outcome (Except ε (List GoString))) (o' : Objects) : Chats (formatItemR t item o) es e o' ↔
    (o.spec t = none ∧ es = [] ∧ e = .panicked (.onNil .deref) ∧ o' = o) ∨
    ∃ sp, o.spec t = some sp ∧ ∃ (cs : List (Finished ν)) (es1 : List (CallEvent ι ν ε)) (o1 : Objects),
      Makes (o.widthMap t) item (o.columns sp) 0 o cs es1 o1 ∧
      ((cs.length = (o.columns sp).len ∧ es = es1 ∧ e = .returned (.ok (cs.map (·.text))) ∧ o' = o1) ∨
       (cs.length < (o.columns sp).len ∧ ∃ tail, es = es1 ++ tail ∧
         Stops (o.widthMap t) item (o.columns sp) cs.length o1 tail e o')) := by
  constructor
  · intro h
    unfold formatItemR Objects.columnsOf at h
    cases hs : o.spec t with
    | none =>
      simp only [hs, Option.map_none] at h
      cases h
      exact .inl ⟨rfl, rfl, rfl, rfl⟩
    | some sp =>
      simp only [hs, Option.map_some] at h
      obtain ⟨cs, es1, o1, hm, hr⟩ := formats_from _ item _ 0 [] o (Nat.zero_le _) h
      simp only [Nat.zero_add, List.nil_append] at hr
      exact .inr ⟨sp, rfl, cs, es1, o1, hm, hr⟩
  · unfold formatItemR Objects.columnsOf
    rintro (⟨hs, rfl, rfl, rfl⟩ | ⟨sp, hs, cs, es1, o1, hm, hr⟩)
    · simp only [hs, Option.map_none]
      exact .panic _ _
    · simp only [hs, Option.map_some]
      rcases hr with ⟨hl, rfl, rfl, rfl⟩ | ⟨hl, tail, rfl, hst⟩
      · have := makes_formats _ item _ hm [] (tail := []) (e := .returned (.ok (cs.map (·.text)))) (o' := o')
          (by omega) (by rw [Nat.zero_add, hl, formatItemFrom, if_neg (Nat.lt_irrefl _)]; exact .ret _ _)
        simpa using this
      · exact makes_formats _ item _ hm [] (by omega) (by
          rw [Nat.zero_add]
          exact stops_formats _ item _ _ _ o1 hl hst)

/-- C80. A row that is returned has as many cells as the table had columns when `FormatItem` was called, even if
getters have added or removed columns since, and the cells are what the calls of `Format` replied, in order. -/
theorem C80_row (t : Nat) (item : ι) (o : Objects) (es : List (CallEvent ι ν ε)) (row : List GoString)
    (o' : Objects) (h : Chats (formatItemR t item o) es (.returned (.ok row)) o') :
    ∃ sp, o.spec t = some sp ∧ row.length = (o.columns sp).len ∧ es.length = 2 * row.length ∧
      ∀ k text, row[k]? = some text → ∃ g v before after,
        es[2 * k + 1]? = some (.format g item v before (.ok text) after) := by
  rcases (C80_calls t item o es _ o').mp h with ⟨_, _, he, _⟩ | ⟨sp, hsp, cs, es1, o1, hm, hr⟩
  · cases he
  · rcases hr with ⟨hl, rfl, he, rfl⟩ | ⟨_, tail, _, hst⟩
    · cases he
      obtain ⟨h1, h2⟩ := makes_events hm
      refine ⟨sp, hsp, by rw [List.length_map, hl], by rw [List.length_map, h1], fun k text hk => ?_⟩
      rw [List.getElem?_map, Option.map_eq_some_iff] at hk
      obtain ⟨c, hc, rfl⟩ := hk
      obtain ⟨before, _, _, h3⟩ := h2 k c hc
      exact ⟨_, _, _, _, h3⟩
    · cases hst

/-- C80. Each of the three methods, with whatever user code, comes to an end, in one way only. -/
theorem C80_ends (u : UserCode ι ν ε) (past : List (CallEvent ι ν ε)) (t : Nat) (item : ι) (sep : GoString) (formatted : Slice)
    (o : Objects) :
    (∃ r : List (CallEvent ι ν ε) × Outcome (Except ε (List GoString)) × Objects,
      ∀ es e o', Chats (formatItemR t item o) es e o' ∧ Told u past es ↔ (es, e, o') = r) ∧
    (∃ r : List (CallEvent ι ν ε) × Outcome (Except ε GoString) × Objects,
      ∀ es e o', Chats (formatItemBasicR t item sep o) es e o' ∧ Told u past es ↔ (es, e, o') = r) ∧
    (∃ r : List (CallEvent ι ν ε) × Outcome (Except (Nat × Nat) Slice) × Objects,
      ∀ es e o', Chats (alignItemR t formatted o) es e o' ∧ Told u past es ↔ (es, e, o') = r) :=
  ⟨⟨_, playOut_iff u past _⟩, ⟨_, playOut_iff u past _⟩, ⟨_, playOut_iff u past _⟩⟩

deriving instance DecidableEq for Slice
deriving instance DecidableEq for Except

/- Two columns, "a" and "b", in an array with room for more. -/
def exampleObjects : Objects where
  spec := fun _ => some 0
  columns := fun _ => ⟨0, 0, 2⟩
  element := fun _ i => if i < 2 then some i else none
  column := fun c => ⟨some c, some c, if c = 0 then lit "a" else if c = 1 then lit "b" else lit "c"⟩
  strings := fun _ i => if i = 0 then lit "p" else lit "q"
  widthMap := fun t => some t
  recorded := fun _ _ => 0
  answer := fun _ s => visualWidth ⟨false, true⟩ s

/- Getters that reply with their own number, and with "x", "yy", "zzz", …; the first one adds column "c" and widens "b". -/
def exampleUser : UserCode Unit Nat Unit where
  value := fun _ g _ o => (.ok g, if g = 0 then { o with
    columns := fun _ => ⟨0, 0, 3⟩
    element := fun _ i => if i < 3 then some i else none
    recorded := (noted (some 0) (lit "b") 9 o).recorded } else o)
  format := fun _ g _ v o => (if v = 7 then .error () else .ok (List.replicate (g + 1) (0x78 + UInt8.ofNat g)), o)
  valueString := fun _ g name _ o => (.ok name, { o with
    columns := fun _ => ⟨0, 0, 1⟩
    element := fun _ i => if g = 0 ∧ i = 1 then some 2 else o.element 0 i })
  align := fun _ _ text w o => (some (text ++ List.replicate w.toNat 0x2E), (noted (some 0) (lit "b") 2 o).setString ⟨0, 0, 2⟩ 1 (lit "r"))

/- The row has two cells, though the table has three columns by then. -/
example : ∃ (es : List (CallEvent Unit Nat Unit)) (o' : Objects), Chats (formatItemR 0 () exampleObjects) es
      (.returned (.ok [lit "x", lit "yy"]) : Outcome (Except Unit (List GoString))) o' ∧
    es.length = 4 ∧ (o'.columns 0).len = 3 ∧ o'.widths 0 ≠ none ∧
    (o'.widths 0).map (fun m => (m (lit "a"), m (lit "b"), m (lit "c"))) = some (1, 9, 0) := by
  have h := playOut_chats exampleUser [] (formatItemR 0 () exampleObjects)
  have he : (playOut exampleUser [] (formatItemR 0 () exampleObjects)).2.1 =
    .returned (.ok [lit "x", lit "yy"]) := by decide +kernel
  rw [he] at h
  exact ⟨_, _, h, by decide +kernel, by decide +kernel, by decide +kernel, by decide +kernel⟩

/-! ## C81 -/

/-- C81. User code can only widen the recorded widths, however deeply its calls of `UpdateWidth`, `FormatItem`,
`FormatItemBasic`, `AlignFormattedItem`, `MergeRowsHorizontal` and `MergeRowsVertical` are nested in each other, and
whether they return or panic, and whichever tables it overwrites with others: no width recorded in a map becomes
smaller, and so none of a table that has the same map in the end. -/
theorem C81_grown (o o' : Objects) (h : Acts ι ν ε o o') :
    Grown o o' ∧ ∀ t, o'.widthMap t = o.widthMap t → (o.widths t = none ∧ o'.widths t = none) ∨
      ∃ m m', o.widths t = some m ∧ o'.widths t = some m' ∧ ∀ k, m k ≤ m' k := by
  refine ⟨grown_acts h, fun t ht => ?_⟩
  unfold Objects.widths
  rw [ht]
  cases o.widthMap t with
  | none => exact .inl ⟨rfl, rfl⟩
  | some r => exact .inr ⟨_, _, rfl, rfl, grown_acts h r⟩

/-- C81. `FormatItem` itself only widens them, and leaves every cell it returns covered: its width, as measured when
`Format` returned, is at most the one recorded for the name its column had then, in the map the table had when it was
called. -/
theorem C81_covered (t : Nat) (item : ι) (o : Objects) (es : List (CallEvent ι ν ε))
    (e : Outcome (Except ε (List GoString))) (o' : Objects) (h : Chats (formatItemR t item o) es e o')
    (hs : ∀ ev ∈ es, Grown ev.before ev.after) :
    Grown o o' ∧ ∀ sp, o.spec t = some sp → ∀ k row, e = .returned (.ok row) → k < row.length →
      ∃ col text g g' v o1 o2 o3, row[k]? = some text ∧
        es[2 * k]? = some (.value g item o1 (.ok v) o2) ∧ es[2 * k + 1]? = some (.format g' item v o2 (.ok text) o3) ∧
        o1.element (o.columns sp).array ((o.columns sp).first + k) = some col ∧
        ∀ r, o.widthMap t = some r → o3.answer k text ≤ o'.recorded r (o3.column col).name := by
  refine ⟨grown_formats h hs, fun sp hsp k row he hk => ?_⟩
  subst he
  rcases (C80_calls t item o es _ o').mp h with ⟨_, _, he, _⟩ | ⟨sp', hsp', cs, es1, o1, hm, hr⟩
  · cases he
  · rw [hsp] at hsp'
    cases hsp'
    rcases hr with ⟨hl, rfl, he, rfl⟩ | ⟨_, tail, _, hst⟩
    · cases he
      rw [List.length_map] at hk
      have hc : cs[k]? = some cs[k] := List.getElem?_eq_getElem hk
      obtain ⟨before, hof, h2, h3⟩ := (makes_events hm).2 k _ hc
      rw [Nat.zero_add] at hof
      refine ⟨cs[k].column, cs[k].text, _, _, _, _, _, _, by rw [List.getElem?_map, hc]; rfl, h2, h3, hof.1, fun m hm' => ?_⟩
      have := makes_covered hm hs cs[k] k hc m hm'
      rwa [Nat.zero_add] at this
    · cases hst

theorem exampleUser_grown (past : List (CallEvent Unit Nat Unit)) (p : Chat Unit Nat Unit α) :
    ∀ ev ∈ (playOut exampleUser past p).1, Grown ev.before ev.after := by
  induction p generalizing past with
  | ret a o => intro ev h; cases h
  | panic why o => intro ev h; cases h
  | unfinished o => intro ev h; cases h
  | value g item o k ih =>
    refine List.forall_mem_cons.mpr ⟨?_, ih _ _ _⟩
    show Grown o (if g = 0 then _ else o)
    split
    · exact grown_noted (some 0) (lit "b") 9 o
    · exact grown_refl o
  | format g item v o k ih => exact List.forall_mem_cons.mpr ⟨grown_refl o, ih _ _ _⟩
  | valueString g name item o k ih => exact List.forall_mem_cons.mpr ⟨grown_open rfl, ih _ _ _⟩
  | align al text w o k ih => exact List.forall_mem_cons.mpr ⟨grown_noted (some 0) (lit "b") 2 o, ih _ _ _⟩
  | len o k ih => exact List.forall_mem_cons.mpr ⟨grown_refl o, ih _ _ _⟩
  | get i o k ih => exact List.forall_mem_cons.mpr ⟨grown_refl o, ih _ _ _⟩
  | write text o k ih => exact List.forall_mem_cons.mpr ⟨grown_refl o, ih _ _ _⟩

/- The hypotheses of `C81_covered`, for the example above. -/
example : ∃ (es : List (CallEvent Unit Nat Unit)) (e : _) (o' : Objects),
    Chats (formatItemR 0 () exampleObjects) es e o' ∧
    (∀ ev ∈ es, Grown ev.before ev.after) ∧ e = (.returned (.ok [lit "x", lit "yy"]) : Outcome (Except Unit _)) :=
  ⟨_, _, _, playOut_chats exampleUser [] _, exampleUser_grown _ _, by decide +kernel⟩

/- `UpdateWidth`, a renamed column and a nested `FormatItem` whose getters do nothing else, one after the other. -/
def quietUser : UserCode Unit Nat Unit where
  value := fun _ g _ o => (.ok g, o)
  format := fun _ g _ _ o => (.ok (List.replicate (g + 1) 0x78), o)
  valueString := fun _ _ name _ o => (.ok name, o)
  align := fun _ _ text _ o => (some text, o)

theorem quiet_all (past : List (CallEvent Unit Nat Unit)) (p : Chat Unit Nat Unit α) :
    AllAct Unit Nat Unit (playOut quietUser past p).1 := by
  induction p generalizing past with
  | ret a o => exact .nil
  | panic why o => exact .nil
  | unfinished o => exact .nil
  | value g item o k ih => exact .cons _ _ (.nothing _) (ih _ _ _)
  | format g item v o k ih => exact .cons _ _ (.nothing _) (ih _ _ _)
  | valueString g name item o k ih => exact .cons _ _ (.nothing _) (ih _ _ _)
  | align al text w o k ih => exact .cons _ _ (.nothing _) (ih _ _ _)
  | len o k ih => exact .cons _ _ (.nothing _) (ih _ _ _)
  | get i o k ih => exact .cons _ _ (.nothing _) (ih _ _ _)
  | write text o k ih => exact .cons _ _ (.nothing _) (ih _ _ _)

example : ∃ o', Acts Unit Nat Unit exampleObjects o' ∧
    (o'.widths 0).map (fun m => (m (lit "a"), m (lit "b"), m (lit "new"))) = some (3, 0, 2) := by
  refine ⟨_, .updates 0 [(lit "a", 3)] _ _ _ (.cons _ _ _ _ _ (.inl (by simp [exampleObjects])) (.nil _))
    (.changes _ { noted (some 0) (lit "a") 3 exampleObjects with
      column := fun c => ⟨some c, none, if c = 0 then lit "a" else lit "new"⟩ } _ rfl
      (.formats 0 () _ _ _ _ _ (playOut_chats quietUser [] _) (quiet_all _ _) (.nothing _))), ?_⟩
  decide +kernel

/-! ## C82 -/

theorem quiet_call {σ : Type} {G : Nat → Getter σ ι ν ε} {f : Flags} {t : Nat} {item : ι} {o : Objects}
    {es : List (CallEvent ι ν ε)} {e : Outcome (Except ε (List GoString))} {o' : Objects} {st st' : σ} {sp : Nat}
    (hsp : o.spec t = some sp) (h : Chats (formatItemR t item o) es e o') (hq : QuietTable G st es st')
    (Ok : GoString → Prop) (hf : ∀ i s, Ok s → o.answer i s = visualWidth f s)
    (ha : ∀ ev ∈ es, (∀ i s, Ok s → ev.before.answer i s = visualWidth f s) →
      ∀ i s, Ok s → ev.after.answer i s = visualWidth f s)
    (hx : ∀ g item v before x after, CallEvent.format g item v before (.ok x) after ∈ es → Ok x)
    (hg : ∀ k col, k < (o.columns sp).len →
      o.element (o.columns sp).array ((o.columns sp).first + k) = some col → (o.column col).getter ≠ none) :
    ∃ fe, endOfCall e = some fe ∧ (tableValue G o t (o.columns sp)).formatItem f item st =
      (fe, tableValue G o' t (o.columns sp), st') ∧
      o' = { o with
        recorded := fun r => if o.widthMap t = some r then o'.recorded r else o.recorded r
        answer := o'.answer } ∧
      ∀ i s, Ok s → o'.answer i s = visualWidth f s := by
  unfold formatItemR Objects.columnsOf at h
  simp only [hsp, Option.map_some] at h
  obtain ⟨fe, h1, h2, h3, h4⟩ := quiet_from G f _ item _ 0 [] o (Nat.zero_le _) h hq Ok hf ha hx hg
  refine ⟨fe, h1, ?_, h3, h4⟩
  rw [Nat.sub_zero, ← List.range_eq_range'] at h2
  have he : o'.element = o.element := by rw [h3]
  have hc : o'.column = o.column := by rw [h3]
  have hw : o'.widthMap = o.widthMap := by rw [h3]
  simp only [LiteralTable.formatItem, tableValue, Objects.widths, h2, he, hc, hw]

/-- C82. If the getters leave the table alone, a call of `FormatItem` does what `C21` and `C62` describe for tables as
values. -/
theorem C82_quiet {σ : Type} (G : Nat → Getter σ ι ν ε) (f : Flags) (t : Nat) (item : ι) (o : Objects)
    (es : List (CallEvent ι ν ε)) (e : Outcome (Except ε (List GoString))) (o' : Objects) (st st' : σ) (sp : Nat)
    (hsp : o.spec t = some sp) (h : Chats (formatItemR t item o) es e o') (hq : Quiet G st es st')
    (hm : MeasuresBy f o)
    (hg : ∀ k col, k < (o.columns sp).len →
      o.element (o.columns sp).array ((o.columns sp).first + k) = some col → (o.column col).getter ≠ none) :
    ∃ fe, endOfCall e = some fe ∧ (tableValue G o t (o.columns sp)).formatItem f item st =
      (fe, tableValue G o' t (o.columns sp), st') ∧
      o' = { o with recorded := fun r => if o.widthMap t = some r then o'.recorded r else o.recorded r } := by
  have hb : ∀ ev ∈ es, ev.after = ev.before := by
    clear h
    induction hq with
    | nil st => intro ev h; cases h
    | value g item o st st' es h ih => exact List.forall_mem_cons.mpr ⟨rfl, ih⟩
    | format g item v o st st' es h ih => exact List.forall_mem_cons.mpr ⟨rfl, ih⟩
  obtain ⟨fe, h1, h2, h3, h4⟩ := quiet_call hsp h (quiet_table hq) (fun _ => True) (fun i s _ => hm i s)
    (fun ev hev hb' => hb ev hev ▸ hb') (fun _ _ _ _ _ _ _ => trivial) hg
  refine ⟨fe, h1, h2, h3.trans ?_⟩
  rw [show o'.answer = o.answer from funext fun i => funext fun s => (h4 i s trivial).trans (hm i s).symm]

/-- C82. And there always is such a call. -/
theorem C82_quiet_exists {σ : Type} (G : Nat → Getter σ ι ν ε) (t : Nat) (item : ι) (o : Objects) (st : σ) :
    ∃ es e o' st', Chats (formatItemR t item o) es e o' ∧ Quiet G st es st' := by
  unfold formatItemR
  split
  · exact ⟨_, _, _, _, .panic _ _, .nil _⟩
  · exact quiet_exists G _ item _ 0 [] o st (Nat.zero_le _)

/- Getters that count their calls. -/
def countingGetters (g : Nat) : Getter Nat Unit Nat Unit :=
  { value := fun _ st => (.ok g, st + 1)
    format := fun _ v st => (.ok (List.replicate (v + st) 0x78), st + 1)
    valueString := fun _ _ st => (.ok [], st) }

example : ∃ es o', Chats (formatItemR 0 () exampleObjects) es
    (.returned (.ok [lit "x", lit "xxxx"])) o' ∧ Quiet countingGetters 0 es 4 := by
  obtain ⟨es, e, o', st', h1, h2⟩ := C82_quiet_exists countingGetters 0 () exampleObjects 0
  obtain ⟨fe, h3, h4, h5⟩ := C82_quiet countingGetters ⟨false, true⟩ 0 () exampleObjects es e o' 0 st' 0 rfl h1 h2
    (fun _ _ => rfl) (by intro k col hk h; simp [exampleObjects])
  have h6 : ((tableValue countingGetters exampleObjects 0 (exampleObjects.columns 0)).formatItem
    ⟨false, true⟩ () 0).1 = .row [lit "x", lit "xxxx"] := by decide +kernel
  have h7 : ((tableValue countingGetters exampleObjects 0 (exampleObjects.columns 0)).formatItem
    ⟨false, true⟩ () 0).2.2 = 4 := by decide +kernel
  rw [h4] at h6 h7
  simp only at h6 h7
  subst h6 h7
  have : e = .returned (.ok [lit "x", lit "xxxx"]) := by
    unfold endOfCall at h3
    split at h3
    · cases h3; rfl
    all_goals cases h3
  exact ⟨es, o', this ▸ h1, h2⟩

/-! ## C83 -/

/-- C83. `FormatItemBasic`, whatever its getters do: one call of `ValueString` for each position of the slice of columns
the table has when it is called, with the column that stands there when it is its turn. If none fails, the texts
come back with the separator between them. All such runs are possible. -/
theorem C83_basic (t : Nat) (item : ι) (sep : GoString) (o : Objects) (es : List (CallEvent ι ν ε))
    (e : Outcome (Except ε GoString)) (o' : Objects) : Chats (formatItemBasicR t item sep o) es e o' ↔
    (o.spec t = none ∧ es = [] ∧ e = .panicked (.onNil .deref) ∧ o' = o) ∨
    ∃ sp, o.spec t = some sp ∧ ∃ texts r, Collects item (o.columns sp) 0 o texts es r o' ∧
      e = r.getD (.returned (.ok (List.intercalate sep texts))) := by
  constructor
  · intro h
    unfold formatItemBasicR Objects.columnsOf at h
    cases hs : o.spec t with
    | none =>
      simp only [hs, Option.map_none] at h
      cases h
      exact .inl ⟨rfl, rfl, rfl, rfl⟩
    | some sp =>
      simp only [hs, Option.map_some] at h
      obtain ⟨texts, r, h1, h2⟩ := collects_from item sep _ 0 [] o (Nat.zero_le _) h
      exact .inr ⟨sp, rfl, texts, r, h1, by simpa using h2⟩
  · unfold formatItemBasicR Objects.columnsOf
    rintro (⟨hs, rfl, rfl, rfl⟩ | ⟨sp, hs, texts, r, h, rfl⟩)
    · simp only [hs, Option.map_none]
      exact .panic _ _
    · simp only [hs, Option.map_some]
      exact collects_basic item sep _ h []

/- The first getter cuts the columns down to one and puts column "c" in the second place: it is asked all the same. -/
example : ∃ (es : List (CallEvent Unit Nat Unit)) (o' : Objects), Chats (formatItemBasicR 0 () (lit ", ") exampleObjects) es
      (.returned (.ok (lit "a, c")) : Outcome (Except Unit GoString)) o' ∧
    (es.length = 2 ∧ (o'.columns 0).len = 1) := by
  have h := playOut_chats exampleUser [] (formatItemBasicR 0 () (lit ", ") exampleObjects)
  have he : (playOut exampleUser [] (formatItemBasicR 0 () (lit ", ") exampleObjects)).2.1 =
    .returned (.ok (lit "a, c")) := by decide +kernel
  rw [he] at h
  exact ⟨_, _, h, by decide +kernel⟩

/-! ## C84 -/

/-- C84. `AlignFormattedItem`, whatever its alignments do. A slice of the wrong length comes back as an error before any
call. Otherwise, for each position of the slice of columns the table has when it is called, the column that stands
there when it is its turn is asked to align the text that stands in the row at that time to the width on record
at that time, and the reply is written to the row, which is returned. All such runs are possible. -/
theorem C84_align (t : Nat) (formatted : Slice) (o : Objects) (es : List (CallEvent ι ν ε))
    (e : Outcome (Except (Nat × Nat) Slice)) (o' : Objects) : Chats (alignItemR t formatted o) es e o' ↔
    (o.spec t = none ∧ es = [] ∧ e = .panicked (.onNil .deref) ∧ o' = o) ∨
    ∃ sp, o.spec t = some sp ∧
      ((formatted.len ≠ (o.columns sp).len ∧ es = [] ∧ o' = o ∧
          e = .returned (.error (formatted.len, (o.columns sp).len))) ∨
        (formatted.len = (o.columns sp).len ∧ Aligns t formatted (o.columns sp) 0 o es e o')) := by
  constructor
  · intro h
    unfold alignItemR Objects.columnsOf at h
    cases hs : o.spec t with
    | none =>
      simp only [hs, Option.map_none] at h
      cases h
      exact .inl ⟨rfl, rfl, rfl, rfl⟩
    | some sp =>
      simp only [hs, Option.map_some] at h
      refine .inr ⟨sp, rfl, ?_⟩
      split at h
      · rename_i hl
        cases h
        exact .inl ⟨hl, rfl, rfl, rfl⟩
      · rename_i hl
        exact .inr ⟨Decidable.not_not.mp hl, aligns_from t formatted _ 0 o (Nat.zero_le _) h⟩
  · unfold alignItemR Objects.columnsOf
    rintro (⟨hs, rfl, rfl, rfl⟩ | ⟨sp, hs, ⟨hl, rfl, rfl, rfl⟩ | ⟨hl, h⟩⟩)
    · simp only [hs, Option.map_none]
      exact .panic _ _
    · simp only [hs, Option.map_some, if_pos hl]
      exact .ret _ _
    · simp only [hs, Option.map_some]
      rw [if_neg (fun hn => hn hl)]
      exact aligns_align t formatted _ h

/- The first alignment widens "b" and overwrites the second cell. The second one sees both. -/
example : ∃ es o', Chats (alignItemR (ι := Unit) (ν := Nat) (ε := Unit) 0 ⟨0, 0, 2⟩ exampleObjects) es
      (.returned (.ok ⟨0, 0, 2⟩)) o' ∧ (o'.strings 0 0 = lit "p" ∧ o'.strings 0 1 = lit "r..") := by
  have h := playOut_chats exampleUser [] (alignItemR 0 ⟨0, 0, 2⟩ exampleObjects)
  have he : (playOut exampleUser [] (alignItemR 0 ⟨0, 0, 2⟩ exampleObjects)).2.1 =
    .returned (.ok ⟨0, 0, 2⟩) := by decide +kernel
  rw [he] at h
  exact ⟨_, _, h, by decide +kernel⟩

/- A getter added a column while `FormatItem` was at work: `AlignFormattedItem` turns down the row it made. -/
example : ∃ o', Chats (alignItemR (ι := Unit) (ν := Nat) (ε := Unit) 0 ⟨0, 0, 2⟩
      (playOut exampleUser [] (formatItemR 0 () exampleObjects)).2.2) [] (.returned (.error (2, 3))) o' := by
  have h := playOut_chats exampleUser [] (alignItemR 0 ⟨0, 0, 2⟩
    (playOut exampleUser [] (formatItemR 0 () exampleObjects)).2.2)
  have he : (playOut exampleUser [] (alignItemR 0 ⟨0, 0, 2⟩
    (playOut exampleUser [] (formatItemR 0 () exampleObjects)).2.2)).2.1 = .returned (.error (2, 3)) := by
    decide +kernel
  have hn : (playOut exampleUser [] (alignItemR 0 ⟨0, 0, 2⟩
    (playOut exampleUser [] (formatItemR 0 () exampleObjects)).2.2)).1.length = 0 := by decide +kernel
  rw [he, List.eq_nil_of_length_eq_zero hn] at h
  exact ⟨_, h⟩

/-! ## C96 -/

/-- C96. A copy of a table (`*t = *src`) shares its recorded widths: a row formatted by the copy is covered by the widths
of the original too, whatever the getters do, as long as they record no smaller widths and leave the original its
map. -/
theorem C96_copy_covers (t src : Nat) (item : ι) (o : Objects) (es : List (CallEvent ι ν ε))
    (row : List GoString) (o' : Objects)
    (h : Chats (formatItemR t item (o.assign t src)) es (.returned (.ok row)) o')
    (hs : ∀ ev ∈ es, Grown ev.before ev.after) (hkeep : o'.widthMap src = o.widthMap src) :
    ∃ sp, o.spec src = some sp ∧ row.length = (o.columns sp).len ∧ ∀ k, k < row.length →
      ∃ col text g g' v o1 o2 o3, row[k]? = some text ∧
        es[2 * k]? = some (.value g item o1 (.ok v) o2) ∧ es[2 * k + 1]? = some (.format g' item v o2 (.ok text) o3) ∧
        o1.element (o.columns sp).array ((o.columns sp).first + k) = some col ∧
        ∀ m, o'.widths src = some m → o3.answer k text ≤ m (o3.column col).name := by
  have hcov := (C81_covered t item _ es _ o' h hs).2
  rcases (C80_calls t item _ es _ o').mp h with ⟨_, _, he, _⟩ | ⟨sp, hsp, cs, es1, o1, hm, hr⟩
  · cases he
  · have hsp' : o.spec src = some sp := by simpa [Objects.assign] using hsp
    refine ⟨sp, hsp', ?_, fun k hk => ?_⟩
    · rcases hr with ⟨hl, _, he, _⟩ | ⟨_, tail, _, hst⟩
      · cases he
        rw [List.length_map]; exact hl
      · cases hst
    · obtain ⟨col, text, g, g', v, o1, o2, o3, h1, h2, h3, h4, h5⟩ := hcov sp hsp k row rfl hk
      refine ⟨col, text, g, g', v, o1, o2, o3, h1, h2, h3, h4, fun m hm' => ?_⟩
      unfold Objects.widths at hm'
      rw [hkeep] at hm'
      cases hw : o.widthMap src with
      | none => rw [hw] at hm'; cases hm'
      | some r =>
        rw [hw] at hm'
        cases hm'
        exact h5 r (by simpa [Objects.assign] using hw)

/- What the quiet user code and the overwriting one leave alone. -/
theorem quietUser_recorded (past : List (CallEvent Unit Nat Unit)) (p : Chat Unit Nat Unit α) :
    ∀ ev ∈ (playOut quietUser past p).1, ev.after.recorded = ev.before.recorded := by
  induction p generalizing past with
  | ret a o => intro ev h; cases h
  | panic why o => intro ev h; cases h
  | unfinished o => intro ev h; cases h
  | value g item o k ih => exact List.forall_mem_cons.mpr ⟨rfl, ih _ _ _⟩
  | format g item v o k ih => exact List.forall_mem_cons.mpr ⟨rfl, ih _ _ _⟩
  | valueString g name item o k ih => exact List.forall_mem_cons.mpr ⟨rfl, ih _ _ _⟩
  | align al text w o k ih => exact List.forall_mem_cons.mpr ⟨rfl, ih _ _ _⟩
  | len o k ih => exact List.forall_mem_cons.mpr ⟨rfl, ih _ _ _⟩
  | get i o k ih => exact List.forall_mem_cons.mpr ⟨rfl, ih _ _ _⟩
  | write text o k ih => exact List.forall_mem_cons.mpr ⟨rfl, ih _ _ _⟩

def overwritingUser : UserCode Unit Nat Unit :=
  { quietUser with value := fun _ g _ o => (.ok g, if g = 0 then o.assign 0 1 else o) }

theorem overwriting_only (past : List (CallEvent Unit Nat Unit)) (p : Chat Unit Nat Unit α) :
    ∀ ev ∈ (playOut overwritingUser past p).1, ev.after = ev.before ∨ ev.after = ev.before.assign 0 1 := by
  induction p generalizing past with
  | ret a o => intro ev h; cases h
  | panic why o => intro ev h; cases h
  | unfinished o => intro ev h; cases h
  | value g item o k ih =>
    refine List.forall_mem_cons.mpr ⟨?_, ih _ _ _⟩
    show (if g = 0 then o.assign 0 1 else o) = o ∨ (if g = 0 then o.assign 0 1 else o) = o.assign 0 1
    split
    · exact .inr rfl
    · exact .inl rfl
  | format g item v o k ih => exact List.forall_mem_cons.mpr ⟨.inl rfl, ih _ _ _⟩
  | valueString g name item o k ih => exact List.forall_mem_cons.mpr ⟨.inl rfl, ih _ _ _⟩
  | align al text w o k ih => exact List.forall_mem_cons.mpr ⟨.inl rfl, ih _ _ _⟩
  | len o k ih => exact List.forall_mem_cons.mpr ⟨.inl rfl, ih _ _ _⟩
  | get i o k ih => exact List.forall_mem_cons.mpr ⟨.inl rfl, ih _ _ _⟩
  | write text o k ih => exact List.forall_mem_cons.mpr ⟨.inl rfl, ih _ _ _⟩

/-- C96. `FormatItem` records widths in no other map than the one its table had when it was called: tables with other
maps keep their widths, unless user code records some. -/
theorem C96_other_maps (t : Nat) (item : ι) (o : Objects) (es : List (CallEvent ι ν ε))
    (e : Outcome (Except ε (List GoString))) (o' : Objects) (h : Chats (formatItemR t item o) es e o')
    (hs : ∀ ev ∈ es, ev.after.recorded = ev.before.recorded) :
    ∀ t', o'.widthMap t' ≠ o.widthMap t → o'.widths t' = (o'.widthMap t').map o.recorded := by
  intro t' ht'
  unfold Objects.widths
  cases hw : o'.widthMap t' with
  | none => rfl
  | some r =>
    rw [hw] at ht'
    exact congrArg some (formats_frame h (fun hc => ht' hc.symm) fun ev hev => by rw [hs ev hev])

/- Table 1 becomes a copy of table 0; what it records is seen through table 0, but not through table 2. -/
example : ∃ (es : List (CallEvent Unit Nat Unit)) (o' : Objects),
    Chats (formatItemR 1 () (exampleObjects.assign 1 0)) es
      (.returned (.ok [lit "x", lit "xx"]) : Outcome (Except Unit (List GoString))) o' ∧
    (∀ ev ∈ es, Grown ev.before ev.after) ∧ o'.widthMap 0 = exampleObjects.widthMap 0 ∧
    (o'.widths 0).map (fun m => (m (lit "a"), m (lit "b"))) = some (1, 2) ∧
    (o'.widths 2).map (fun m => (m (lit "a"), m (lit "b"))) = some (0, 0) := by
  have h := playOut_chats quietUser [] (formatItemR 1 () (exampleObjects.assign 1 0))
  have he : (playOut quietUser [] (formatItemR 1 () (exampleObjects.assign 1 0))).2.1 =
    .returned (.ok [lit "x", lit "xx"]) := by decide +kernel
  rw [he] at h
  refine ⟨_, _, h, ?_, by decide +kernel, by decide +kernel, by decide +kernel⟩
  intro ev hev
  exact grown_open (quietUser_recorded _ _ ev hev)

/-- C96. So a table that a getter overwrites with a new one (`*t = *New(spec)`) while it formats an item has no widths in
the end for the row it returned. -/
theorem C96_overwritten :
    ∃ (u : UserCode Unit Nat Unit) (es : List (CallEvent Unit Nat Unit)) (o' : Objects), Told u [] es ∧
      Chats (formatItemR 0 () exampleObjects) es
        (.returned (.ok [lit "x", lit "xx"]) : Outcome (Except Unit (List GoString))) o' ∧
      (∀ ev ∈ es, ev.after = ev.before ∨ ev.after = ev.before.assign 0 1) ∧
      (o'.widths 0).map (fun m => (m (lit "a"), m (lit "b"))) = some (0, 0) ∧
      o'.spec 0 = exampleObjects.spec 0 := by
  have he : (playOut overwritingUser [] (formatItemR 0 () exampleObjects)).2.1 =
    .returned (.ok [lit "x", lit "xx"]) := by decide +kernel
  have h := playOut_chats overwritingUser [] (formatItemR 0 () exampleObjects)
  rw [he] at h
  exact ⟨overwritingUser, _, _, playOut_told _ _ _, h, overwriting_only _ _, by decide +kernel, by decide +kernel⟩

end GoTable
