import Verif.Props.Live
import Verif.Props.Cached
/-!
# User code that changes the width settings while a method is at work: C97
-/

namespace GoTable

open Spec

variable {ι ν ε α : Type}

/-! ## C97 -/

/-- C97. If all widths in the cache were measured under settings of `F`, and from now on only those are in force, every
width returned is the one under settings of `F`, whatever the cache forgets; and the right one, for a text that has
the same width under all of them. -/
theorem C97_answers (F : Flags → Prop) (c : Cache) (hc : SoundFor F c) (calls : List (Flags × Evict × Evict × GoString))
    (hF : ∀ e ∈ calls, F e.1) (n : Nat) (e : Flags × Evict × Evict × GoString) (he : calls[n]? = some e) :
    (∃ g, F g ∧ (widthsReturned c calls)[n]? = some (visualWidth g e.2.2.2)) ∧
      (Stable F e.2.2.2 → (widthsReturned c calls)[n]? = some (visualWidth e.1 e.2.2.2)) := by
  have hlen : ∀ (calls : List (Flags × Evict × Evict × GoString)) c, (widthsReturned c calls).length = calls.length := by
    intro calls
    induction calls with
    | nil => intro c; rfl
    | cons e calls ih => intro c; simp [widthsReturned, ih]
  have hn : n < (widthsReturned c calls).length := by
    rw [hlen]
    exact (List.getElem?_eq_some_iff.mp he).1
  have hw := List.getElem?_eq_getElem hn
  obtain ⟨s, hs, hor⟩ := stale_aux calls c (fun s w => ∃ f, F f ∧ w = visualWidth f s) hc n _ hw
  rw [he] at hs
  cases hs
  have key : ∃ g, F g ∧ (widthsReturned c calls)[n]? = some (visualWidth g e.2.2.2) := by
    rcases hor with ⟨g, hg, h⟩ | ⟨m, _, e', he', _, h⟩
    · exact ⟨g, hg, by rw [hw, h]⟩
    · exact ⟨e'.1, hF e' (List.mem_of_getElem? he'), by rw [hw, h]⟩
  refine ⟨key, fun hst => ?_⟩
  obtain ⟨g, hg, h⟩ := key
  rw [h, hst g e.1 hg (hF e (List.mem_of_getElem? he))]

/- East Asian and other settings. -/
def anyLocale (f : Flags) : Prop := f = ⟨false, true⟩ ∨ f = ⟨true, true⟩

/- The section sign is wider under East Asian settings; the cache does not learn of the change. -/
example : SoundFor anyLocale emptyCache ∧ visualWidth ⟨false, true⟩ (lit "§") = 1 ∧
    visualWidth ⟨true, true⟩ (lit "§") = 2 ∧
    widthsReturned emptyCache [(⟨false, true⟩, fun _ => false, fun _ => false, lit "§"),
      (⟨true, true⟩, fun _ => false, fun _ => false, lit "§"), (⟨true, true⟩, fun _ => true, fun _ => false, lit "§")] =
      [1, 1, 2] :=
  ⟨fun s w h => (nomatch h), by decide +kernel, by decide +kernel, by decide +kernel⟩

/-- C97. Such texts: all ASCII texts, escape sequences included, whatever the settings. -/
theorem C97_ascii (F : Flags → Prop) (s : GoString) (hs : ∀ b ∈ s, b.toNat < 0x80) : Stable F s := by
  intro f g _ _
  refine visualWidth_congr f g s fun r hr => ?_
  rw [runes_ascii s hs] at hr
  obtain ⟨b, hb, rfl⟩ := List.mem_map.mp hr
  have key : ∀ r : Nat, r < 0x80 → ∀ a b c d : Bool, runeWidth ⟨a, b⟩ (r : Int) = runeWidth ⟨c, d⟩ (r : Int) := by
    decide +kernel
  exact key b.toNat (hs b hb) f.1 f.2 g.1 g.2

/-- C97. And all texts whose characters have the same width under all of them. -/
theorem C97_characters (F : Flags → Prop) (s : GoString)
    (hs : ∀ f g, F f → F g → ∀ r ∈ runes s, runeWidth f (r : Int) = runeWidth g (r : Int)) : Stable F s :=
  fun f g hf hg => visualWidth_congr f g s (hs f g hf hg)

example : Stable anyLocale (lit "日本 ö") ∧ ¬ Stable anyLocale (lit "§") := by
  refine ⟨C97_characters _ _ ?_, fun h => absurd (h ⟨false, true⟩ ⟨true, true⟩ (.inl rfl) (.inr rfl)) (by decide +kernel)⟩
  rintro f g (rfl | rfl) (rfl | rfl) <;> decide +kernel

/-- C97. If list, writer and alignments leave the table and its rows alone, but switch between settings of `F`, a merge
by rows is a conversation of the merge of the table as a value, as if the settings had been `f` all the time: as
long as every text of the rows handed over has the same width under all of them. -/
theorem C97_horizontal {σ : Type} (G : Nat → Getter σ ι ν ε) (A : Nat → Alignment) (F : Flags → Prop) (f : Flags)
    (t : Nat) (cols : List Nat) (arg : Int) (sep : GoString) (compact : Bool) (fuel : Nat) (o : Objects)
    (es : List (CallEvent ι ν ε)) (e : Outcome Unit) (o' : Objects) (ht : HasColumns o t cols) (hf : F f)
    (ho : AnswersBy F o) (h : Chats (mergeRowsHorizontalL t arg sep compact fuel o) es e o') (hq : LeavesTable A es)
    (ha : ∀ ev ∈ es, AnswersBy F ev.after)
    (hs : ∀ i before row after, CallEvent.get i before (some row) after ∈ es → ∀ text ∈ rowOf o row, Stable F text) :
    o'.ButAnswers o ∧ ∃ e', Talks (mergeRowsHorizontalT f (tableSeen G A o t cols) arg sep compact fuel) (heard o es) e' ∧
      e = outcomeOf e' := by
  have measured : ∀ o : Objects, AnswersBy F o → ∀ i s, Stable F s → o.answer i s = visualWidth f s := by
    intro o ho i s hs
    obtain ⟨g, hg, h⟩ := ho i s
    rw [h, hs g f hg hf]
  exact sim_talks (lsim_mergeH ht arg sep compact fuel o ⟨rfl, measured o ho⟩) h hq
    (fun ev hev _ => measured _ (ha ev hev)) hs

/-- C97. The same for a merge by columns. -/
theorem C97_vertical {σ : Type} (G : Nat → Getter σ ι ν ε) (A : Nat → Alignment) (F : Flags → Prop) (f : Flags)
    (t : Nat) (cols : List Nat) (arg : Int) (sep : GoString) (compact : Bool) (fuel : Nat) (o : Objects)
    (es : List (CallEvent ι ν ε)) (e : Outcome Unit) (o' : Objects) (ht : HasColumns o t cols) (hf : F f)
    (ho : AnswersBy F o) (h : Chats (mergeRowsVerticalL t arg sep compact fuel o) es e o') (hq : LeavesTable A es)
    (ha : ∀ ev ∈ es, AnswersBy F ev.after)
    (hs : ∀ i before row after, CallEvent.get i before (some row) after ∈ es → ∀ text ∈ rowOf o row, Stable F text) :
    o'.ButAnswers o ∧ ∃ e', Talks (mergeRowsVerticalT f (tableSeen G A o t cols) arg sep compact fuel) (heard o es) e' ∧
      e = outcomeOf e' := by
  have measured : ∀ o : Objects, AnswersBy F o → ∀ i s, Stable F s → o.answer i s = visualWidth f s := by
    intro o ho i s hs
    obtain ⟨g, hg, h⟩ := ho i s
    rw [h, hs g f hg hf]
  exact sim_talks (lsim_mergeV ht arg sep compact fuel o ⟨rfl, measured o ho⟩) h hq
    (fun ev hev _ => measured _ (ha ev hev)) hs

/-- C97. The same for `FormatItem`, whose getters switch between settings of `F` but leave the table alone: it does
what it does under the settings `f`, as long as every text formatted has the same width under all of them. -/
theorem C97_format {σ : Type} (G : Nat → Getter σ ι ν ε) (F : Flags → Prop) (f : Flags) (t : Nat) (item : ι) (o : Objects)
    (es : List (CallEvent ι ν ε)) (e : Outcome (Except ε (List GoString))) (o' : Objects) (st st' : σ) (sp : Nat)
    (hsp : o.spec t = some sp) (hf : F f) (ho : AnswersBy F o) (h : Chats (formatItemR t item o) es e o')
    (hq : QuietTable G st es st') (ha : ∀ ev ∈ es, AnswersBy F ev.after)
    (hs : ∀ g item v before text after, CallEvent.format g item v before (.ok text) after ∈ es → Stable F text)
    (hg : ∀ k col, k < (o.columns sp).len →
      o.element (o.columns sp).array ((o.columns sp).first + k) = some col → (o.column col).getter ≠ none) :
    ∃ fe, endOfCall e = some fe ∧ (tableValue G o t (o.columns sp)).formatItem f item st =
      (fe, tableValue G o' t (o.columns sp), st') := by
  have measured : ∀ o : Objects, AnswersBy F o → ∀ i s, Stable F s → o.answer i s = visualWidth f s := by
    intro o ho i s hs
    obtain ⟨g, hg, h⟩ := ho i s
    rw [h, hs g f hg hf]
  obtain ⟨fe, h1, h2, _⟩ := quiet_call hsp h hq (Stable F) (measured o ho)
    (fun ev hev _ => measured _ (ha ev hev)) hs hg
  exact ⟨fe, h1, h2⟩

/-- C97. Whatever getters do, as long as they record no smaller widths and the settings are those of `F`: every cell
`FormatItem` returns is covered under all of these settings, if its text has the same width under them. -/
theorem C97_covered (F : Flags → Prop) (t : Nat) (item : ι) (o : Objects) (es : List (CallEvent ι ν ε))
    (row : List GoString) (o' : Objects) (h : Chats (formatItemR t item o) es (.returned (.ok row)) o')
    (hs : ∀ ev ∈ es, Grown ev.before ev.after) (ha : ∀ ev ∈ es, AnswersBy F ev.after) (k : Nat) (text : GoString)
    (hk : row[k]? = some text) :
    ∃ sp g g' v o1 o2 o3 col, o.spec t = some sp ∧ es[2 * k]? = some (.value g item o1 (.ok v) o2) ∧
      es[2 * k + 1]? = some (.format g' item v o2 (.ok text) o3) ∧
      o1.element (o.columns sp).array ((o.columns sp).first + k) = some col ∧
      ∀ r, o.widthMap t = some r →
        (∃ f, F f ∧ visualWidth f text ≤ o'.recorded r (o3.column col).name) ∧
        (Stable F text → ∀ f, F f → visualWidth f text ≤ o'.recorded r (o3.column col).name) := by
  obtain ⟨sp, hsp, _⟩ := C80_row t item o es row o' h
  have hlt : k < row.length := (List.getElem?_eq_some_iff.mp hk).1
  obtain ⟨col, text', g, g', v, o1, o2, o3, h1, h2, h3, h4, h5⟩ :=
    (C81_covered t item o es _ o' h hs).2 sp hsp k row rfl hlt
  rw [hk] at h1
  cases h1
  refine ⟨sp, g, g', v, o1, o2, o3, col, hsp, h2, h3, h4, fun r hr => ?_⟩
  obtain ⟨f, hf, hw⟩ := ha _ (List.mem_of_getElem? h3) k text
  have hle := h5 r hr
  rw [show o3.answer k text = visualWidth f text from hw] at hle
  exact ⟨⟨f, hf, hle⟩, fun hst g hg => by rw [hst g f hg hf]; exact hle⟩

/- User code that switches to East Asian settings and back at every call, and leaves the table alone. -/
def switched (o : Objects) : Objects :=
  { o with answer := fun _ s => if o.answer 0 (lit "§") = 1 then visualWidth ⟨true, true⟩ s else visualWidth ⟨false, true⟩ s }

def switchingUser : UserCode Unit Nat Unit where
  value := fun _ g _ o => (.ok g, switched o)
  format := fun _ g _ v o => (.ok (List.replicate (g + v + 1) 0x78), switched o)
  valueString := fun _ _ _ _ o => (.panicked, switched o)
  align := fun _ al text w o => (some (dotted al text w), switched o)
  len := fun _ o => (some 5, switched o)
  get := fun _ i o => (some ⟨i.toNat, 0, 2⟩, switched o)
  write := fun _ _ o => (some false, switched o)

theorem switched_by (o : Objects) : AnswersBy anyLocale (switched o) := by
  intro i s
  by_cases h : o.answer 0 (lit "§") = 1
  · exact ⟨⟨true, true⟩, .inr rfl, by simp only [switched, h, if_true]⟩
  · exact ⟨⟨false, true⟩, .inl rfl, by simp only [switched, h, if_false]⟩

theorem switching_leaves (past : List (CallEvent Unit Nat Unit)) (p : Chat Unit Nat Unit α) :
    LeavesTable dotted (playOut switchingUser past p).1 ∧
      (∀ ev ∈ (playOut switchingUser past p).1, AnswersBy anyLocale ev.after ∧ Grown ev.before ev.after) ∧
      ∀ i before row after, CallEvent.get i before (some row) after ∈ (playOut switchingUser past p).1 →
        row = ⟨i.toNat, 0, 2⟩ := by
  have step : ∀ {c : CallEvent Unit Nat Unit} {es : List (CallEvent Unit Nat Unit)}, c.after = switched c.before →
      Replies dotted c → (∀ i before row after, CallEvent.get i before (some row) after = c → row = ⟨i.toNat, 0, 2⟩) →
      (LeavesTable dotted es ∧ (∀ ev ∈ es, AnswersBy anyLocale ev.after ∧ Grown ev.before ev.after) ∧
        ∀ i before row after, CallEvent.get i before (some row) after ∈ es → row = ⟨i.toNat, 0, 2⟩) →
      LeavesTable dotted (c :: es) ∧ (∀ ev ∈ c :: es, AnswersBy anyLocale ev.after ∧ Grown ev.before ev.after) ∧
        ∀ i before row after, CallEvent.get i before (some row) after ∈ c :: es → row = ⟨i.toNat, 0, 2⟩ := by
    intro c es h1 h2 h3 ⟨h4, h5, h6⟩
    refine ⟨List.forall_mem_cons.mpr ⟨⟨by rw [h1]; rfl, h2⟩, h4⟩,
      List.forall_mem_cons.mpr ⟨⟨by rw [h1]; exact switched_by _, by rw [h1]; exact grown_open rfl⟩, h5⟩, ?_⟩
    intro i b row a h
    rcases List.mem_cons.mp h with h | h
    · exact h3 i b row a h
    · exact h6 i b row a h
  induction p generalizing past with
  | ret a o => exact ⟨nofun, nofun, nofun⟩
  | panic why o => exact ⟨nofun, nofun, nofun⟩
  | unfinished o => exact ⟨nofun, nofun, nofun⟩
  | value g item o k ih => exact step rfl trivial nofun (ih _ _ _)
  | format g item v o k ih => exact step rfl trivial nofun (ih _ _ _)
  | valueString g name item o k ih => exact step rfl trivial nofun (ih _ _ _)
  | align al text w o k ih => exact step rfl rfl nofun (ih _ _ _)
  | len o k ih => exact step rfl nofun nofun (ih _ _ _)
  | get i o k ih => exact step rfl nofun (by rintro i' b row a h; cases h; rfl) (ih _ _ _)
  | write text o k ih => exact step rfl nofun nofun (ih _ _ _)

/- The hypotheses of `C97_horizontal` and `C97_vertical`. -/
example (vertical : Bool) : ∃ (es : List (CallEvent Unit Nat Unit)) (e : _) (o' : Objects),
    HasColumns liveObjects 0 [0, 1] ∧ AnswersBy anyLocale liveObjects ∧
    Chats (if vertical then mergeRowsVerticalL 0 24 (lit " | ") true 9 liveObjects
      else mergeRowsHorizontalL 0 24 (lit " | ") true 9 liveObjects) es e o' ∧ LeavesTable dotted es ∧
    (∀ ev ∈ es, AnswersBy anyLocale ev.after) ∧
    (∀ i before row after, CallEvent.get i before (some row) after ∈ es →
      ∀ text ∈ rowOf liveObjects row, Stable anyLocale text) ∧
    e = .returned () ∧ (∃ ev ∈ es, ev.after.answer 0 (lit "§") = 2) ∧ ∃ ev ∈ es, ev.after.answer 0 (lit "§") = 1 := by
  have texts : ∀ n, ∀ text ∈ rowOf liveObjects ⟨n, 0, 2⟩, Stable anyLocale text := by
    intro n text h
    have hr : rowOf liveObjects ⟨n, 0, 2⟩ = [List.replicate (n + 1) 0x78, lit "1"] := rfl
    rw [hr] at h
    refine C97_ascii _ _ ?_
    rcases List.mem_cons.mp h with rfl | h
    · intro b hb
      rw [List.eq_of_mem_replicate hb]
      decide
    · rw [List.mem_singleton.mp h]
      decide +kernel
  have hcol : HasColumns liveObjects 0 [0, 1] := ⟨0, rfl, rfl, by
    intro i hi
    match i, hi with
    | 0, _ => rfl
    | 1, _ => rfl⟩
  obtain ⟨h1, h2, h3⟩ := switching_leaves [] (if vertical then
    mergeRowsVerticalL 0 24 (lit " | ") true 9 liveObjects else
    mergeRowsHorizontalL 0 24 (lit " | ") true 9 liveObjects)
  refine ⟨_, _, _, hcol, fun i s => ⟨_, .inl rfl, rfl⟩, playOut_chats switchingUser [] _, h1, fun ev hev => (h2 ev hev).1,
    fun i b row a h => h3 i b row a h ▸ texts _, ?_, ?_, ?_⟩
  · cases vertical <;> decide +kernel
  · cases vertical <;> decide +kernel
  · cases vertical <;> decide +kernel

/- Getters that reply like the switching user code. -/
def switchedGetters (g : Nat) : Getter Unit Unit Nat Unit :=
  { value := fun _ st => (.ok g, st)
    format := fun _ v st => (.ok (List.replicate (g + v + 1) 0x78), st)
    valueString := fun _ _ st => (.ok [], st) }

def isGetterCall : CallEvent Unit Nat Unit → Bool
  | .value .. => true
  | .format .. => true
  | _ => false

theorem switching_getters (past : List (CallEvent Unit Nat Unit)) (p : Chat Unit Nat Unit α)
    (h : (playOut switchingUser past p).1.all isGetterCall = true) :
    QuietTable switchedGetters () (playOut switchingUser past p).1 () ∧
      ∀ g item v before text after, CallEvent.format g item v before (.ok text) after ∈ (playOut switchingUser past p).1 →
        Stable anyLocale text := by
  induction p generalizing past with
  | ret a o => exact ⟨.nil (), nofun⟩
  | panic why o => exact ⟨.nil (), nofun⟩
  | unfinished o => exact ⟨.nil (), nofun⟩
  | value g item o k ih =>
    have h' := ih _ _ _ (Bool.and_eq_true_iff.mp (List.all_cons ▸ h)).2
    exact ⟨.value g item o (switched o) () () _ rfl h'.1, fun g item v b text a hm =>
      h'.2 g item v b text a ((List.mem_cons.mp hm).resolve_left nofun)⟩
  | format g item v o k ih =>
    have h' := ih _ _ _ (Bool.and_eq_true_iff.mp (List.all_cons ▸ h)).2
    refine ⟨.format g item v o (switched o) () () _ rfl h'.1, fun g item v b text a hm => ?_⟩
    rcases List.mem_cons.mp hm with hm | hm
    · cases hm
      refine C97_ascii _ _ fun b hb => ?_
      rw [List.eq_of_mem_replicate hb]
      decide
    · exact h'.2 g item v b text a hm
  | valueString g name item o k ih => cases (List.all_cons ▸ h : (_ && _) = true)
  | align al text w o k ih => cases (List.all_cons ▸ h : (_ && _) = true)
  | len o k ih => cases (List.all_cons ▸ h : (_ && _) = true)
  | get i o k ih => cases (List.all_cons ▸ h : (_ && _) = true)
  | write text o k ih => cases (List.all_cons ▸ h : (_ && _) = true)

/- The hypotheses of `C97_format` and `C97_covered`. -/
example : ∃ (es : List (CallEvent Unit Nat Unit)) (o' : Objects), AnswersBy anyLocale exampleObjects ∧
    Chats (formatItemR 0 () exampleObjects) es (.returned (.ok [lit "x", lit "xxx"])) o' ∧
    QuietTable switchedGetters () es () ∧ (∀ ev ∈ es, AnswersBy anyLocale ev.after ∧ Grown ev.before ev.after) ∧
    (∀ g item v before text after, CallEvent.format g item v before (.ok text) after ∈ es → Stable anyLocale text) ∧
    (o'.widths 0).map (fun m => (m (lit "a"), m (lit "b"))) = some (1, 3) ∧
    ∃ ev ∈ es, ev.after.answer 0 (lit "§") = 2 := by
  have h := playOut_chats switchingUser [] (formatItemR 0 () exampleObjects)
  have he : (playOut switchingUser [] (formatItemR 0 () exampleObjects)).2.1 =
    .returned (.ok [lit "x", lit "xxx"]) := by decide +kernel
  rw [he] at h
  obtain ⟨h1, h2⟩ := switching_getters [] (formatItemR 0 () exampleObjects) (by decide +kernel)
  exact ⟨_, _, fun i s => ⟨_, .inl rfl, rfl⟩, h, h1, (switching_leaves [] _).2.1, h2, by decide +kernel,
    by decide +kernel⟩

/- Getters that reply with a section sign, the first one under other settings than the rest. -/
def inAsia (g : Nat) (o : Objects) : Objects := { o with answer := fun _ s => visualWidth ⟨decide (0 < g), true⟩ s }

def widerUser : UserCode Unit Nat Unit where
  value := fun _ g _ o => (.ok g, inAsia g o)
  format := fun _ g _ _ o => (.ok (lit "§"), inAsia g o)
  valueString := fun _ g _ _ o => (.panicked, inAsia g o)
  align := fun _ _ _ _ o => (none, inAsia 1 o)
  len := fun _ o => (none, inAsia 1 o)
  get := fun _ _ o => (none, inAsia 1 o)
  write := fun _ _ o => (none, inAsia 1 o)

theorem wider_events (past : List (CallEvent Unit Nat Unit)) (p : Chat Unit Nat Unit α) :
    ∀ ev ∈ (playOut widerUser past p).1, ev.after.ButAnswers ev.before ∧ AnswersBy anyLocale ev.after := by
  have key : ∀ g o, (inAsia g o).ButAnswers o ∧ AnswersBy anyLocale (inAsia g o) := by
    intro g o
    refine ⟨rfl, fun i s => ⟨⟨decide (0 < g), true⟩, ?_, rfl⟩⟩
    cases decide (0 < g)
    · exact .inl rfl
    · exact .inr rfl
  induction p generalizing past with
  | ret a o => exact nofun
  | panic why o => exact nofun
  | unfinished o => exact nofun
  | value g item o k ih => exact List.forall_mem_cons.mpr ⟨key _ _, ih _ _ _⟩
  | format g item v o k ih => exact List.forall_mem_cons.mpr ⟨key _ _, ih _ _ _⟩
  | valueString g name item o k ih => exact List.forall_mem_cons.mpr ⟨key _ _, ih _ _ _⟩
  | align al text w o k ih => exact List.forall_mem_cons.mpr ⟨key _ _, ih _ _ _⟩
  | len o k ih => exact List.forall_mem_cons.mpr ⟨key _ _, ih _ _ _⟩
  | get i o k ih => exact List.forall_mem_cons.mpr ⟨key _ _, ih _ _ _⟩
  | write text o k ih => exact List.forall_mem_cons.mpr ⟨key _ _, ih _ _ _⟩

/-- C97. Other texts need not be covered: two cells with the same text, of which only the second, measured after the
settings were changed, fits into its column under the new ones. -/
theorem C97_uncovered :
    ∃ (u : UserCode Unit Nat Unit) (es : List (CallEvent Unit Nat Unit)) (o' : Objects), Told u [] es ∧
      Chats (formatItemR 0 () exampleObjects) es
        (.returned (.ok [lit "§", lit "§"]) : Outcome (Except Unit (List GoString))) o' ∧
      (∀ ev ∈ es, ev.after.ButAnswers ev.before ∧ AnswersBy anyLocale ev.after) ∧
      o'.answer 0 (lit "§") = 2 ∧ visualWidth ⟨true, true⟩ (lit "§") = 2 ∧
      (o'.widths 0).map (fun m => (m (lit "a"), m (lit "b"))) = some (1, 2) := by
  have he : (playOut widerUser [] (formatItemR 0 () exampleObjects)).2.1 =
    .returned (.ok [lit "§", lit "§"]) := by decide +kernel
  have h := playOut_chats widerUser [] (formatItemR 0 () exampleObjects)
  rw [he] at h
  refine ⟨widerUser, _, _, playOut_told _ _ _, h, wider_events _ _,
    by decide +kernel, by decide +kernel, by decide +kernel⟩

end GoTable
