import Verif.Spec.Talk
import Verif.Props.Merge
/-! Conversations of the merges with the caller's list and writer. -/

namespace GoTable
open Spec

variable {σ ι ν ε : Type} {α β : Type}

/-! ## Conversations -/

theorem talk_bind_eq (p : Talk α) (g : α → Talk β) : (p >>= g) = p.bind g := rfl
theorem talk_pure_eq (a : α) : (pure a : Talk α) = .ret a := rfl

theorem talk_bind_ret (p : Talk α) : p.bind .ret = p := by
  induction p with
  | ret => rfl
  | panic => rfl
  | unfinished => rfl
  | len k ih => simp only [Talk.bind, ih]
  | get i k ih => simp only [Talk.bind, ih]
  | write s k ih => simp only [Talk.bind, ih]

theorem talk_bind_assoc {γ : Type} (p : Talk α) (g : α → Talk β) (h : β → Talk γ) :
    (p.bind g).bind h = p.bind fun a => (g a).bind h := by
  induction p with
  | ret => rfl
  | panic => rfl
  | unfinished => rfl
  | len k ih => simp only [Talk.bind, ih]
  | get i k ih => simp only [Talk.bind, ih]
  | write s k ih => simp only [Talk.bind, ih]

instance : LawfulMonad Talk := LawfulMonad.mk' (m := Talk)
  (id_map := fun p => talk_bind_ret p)
  (pure_bind := fun _ _ => rfl)
  (bind_assoc := fun p g h => talk_bind_assoc p g h)

theorem talks_bind {p : Talk α} {g : α → Talk β} {es : List Event} {e : Ending β}
    (h : Talks (p >>= g) es e) :
    (∃ es1 a es2, es = es1 ++ es2 ∧ Talks p es1 (.returned a) ∧ Talks (g a) es2 e) ∨
    (∃ q, e = .panicked q ∧ Talks p es (.panicked q)) ∨ (e = .unfinished ∧ Talks p es .unfinished) := by
  rw [talk_bind_eq] at h
  induction p generalizing es with
  | ret a => exact .inl ⟨[], a, es, rfl, .ret a, h⟩
  | panic q => cases h; exact .inr (.inl ⟨q, rfl, .panic q⟩)
  | unfinished => cases h; exact .inr (.inr ⟨rfl, .unfinished⟩)
  | len k ih =>
    cases h with
    | len n h =>
      rcases ih n h with ⟨es1, a, es2, rfl, h1, h2⟩ | ⟨q, rfl, h1⟩ | ⟨rfl, h1⟩
      · exact .inl ⟨_, a, es2, rfl, .len n h1, h2⟩
      · exact .inr (.inl ⟨q, rfl, .len n h1⟩)
      · exact .inr (.inr ⟨rfl, .len n h1⟩)
  | get i k ih =>
    cases h with
    | get _ row h =>
      rcases ih row h with ⟨es1, a, es2, rfl, h1, h2⟩ | ⟨q, rfl, h1⟩ | ⟨rfl, h1⟩
      · exact .inl ⟨_, a, es2, rfl, .get i row h1, h2⟩
      · exact .inr (.inl ⟨q, rfl, .get i row h1⟩)
      · exact .inr (.inr ⟨rfl, .get i row h1⟩)
  | write s k ih =>
    cases h with
    | write _ b h =>
      rcases ih b h with ⟨es1, a, es2, rfl, h1, h2⟩ | ⟨q, rfl, h1⟩ | ⟨rfl, h1⟩
      · exact .inl ⟨_, a, es2, rfl, .write s b h1, h2⟩
      · exact .inr (.inl ⟨q, rfl, .write s b h1⟩)
      · exact .inr (.inr ⟨rfl, .write s b h1⟩)

theorem talks_askLen {g : Int → Talk β} {es : List Event} {e : Ending β} (h : Talks (askLen >>= g) es e) :
    ∃ n es', es = .len n :: es' ∧ Talks (g n) es' e := by
  cases h with
  | len n h => exact ⟨n, _, rfl, h⟩

theorem talks_askGet {i : Int} {g : List GoString → Talk β} {es : List Event} {e : Ending β}
    (h : Talks (askGet i >>= g) es e) : ∃ row es', es = .get i row :: es' ∧ Talks (g row) es' e := by
  cases h with
  | get _ row h => exact ⟨row, _, rfl, h⟩

theorem talks_askWrite {s : GoString} {g : Bool → Talk β} {es : List Event} {e : Ending β}
    (h : Talks (askWrite s >>= g) es e) : ∃ b es', es = .write s b :: es' ∧ Talks (g b) es' e := by
  cases h with
  | write _ b h => exact ⟨b, _, rfl, h⟩

/-- There is a conversation with any fixed list and any writer. -/
theorem talks_exists (p : Talk α) (items : Items) (fails : Nat → Bool) :
    ∃ es e, Talks p es e ∧ Fixed items fails es := by
  induction p generalizing fails with
  | ret a => exact ⟨_, _, .ret a, by constructor <;> simp [failures]⟩
  | panic q => exact ⟨_, _, .panic q, by constructor <;> simp [failures]⟩
  | unfinished => exact ⟨_, _, .unfinished, by constructor <;> simp [failures]⟩
  | len k ih =>
    obtain ⟨es, e, h, hf⟩ := ih items.len fails
    refine ⟨_, _, .len _ h, ⟨?_, ?_, ?_⟩⟩
    · intro n hn
      rcases List.mem_cons.mp hn with h | h
      · cases h; rfl
      · exact hf.len n h
    · intro i row hr
      rcases List.mem_cons.mp hr with h | h
      · cases h
      · exact hf.get i row h
    · exact hf.write
  | get i k ih =>
    obtain ⟨es, e, h, hf⟩ := ih (items.get i) fails
    refine ⟨_, _, .get i _ h, ⟨?_, ?_, ?_⟩⟩
    · intro n hn
      rcases List.mem_cons.mp hn with h | h
      · cases h
      · exact hf.len n h
    · intro i row hr
      rcases List.mem_cons.mp hr with h | h
      · cases h; rfl
      · exact hf.get i row h
    · exact hf.write
  | write s k ih =>
    obtain ⟨es, e, h, hf⟩ := ih (fails 0) (fun k => fails (k + 1))
    refine ⟨_, _, .write s _ h, ⟨?_, ?_, ?_⟩⟩
    · intro n hn
      rcases List.mem_cons.mp hn with h | h
      · cases h
      · exact hf.len n h
    · intro i row hr
      rcases List.mem_cons.mp hr with h | h
      · cases h
      · exact hf.get i row h
    · intro k failed hk
      cases k with
      | zero => simp only [failures, List.getElem?_cons_zero, Option.some.injEq] at hk; exact hk.symm
      | succ k => exact hf.write k failed (by simpa [failures] using hk)

/-! ## Events -/

theorem written_append (a b : List Event) : written (a ++ b) = written a ++ written b := by
  induction a with
  | nil => rfl
  | cons x a ih => cases x <;> simp [written, ih]

theorem failures_append (a b : List Event) : failures (a ++ b) = failures a ++ failures b := by
  induction a with
  | nil => rfl
  | cons x a ih => cases x <;> simp [failures, ih]

theorem asked_append (a b : List Event) : asked (a ++ b) = asked a ++ asked b := by
  induction a with
  | nil => rfl
  | cons x a ih => cases x <;> simp [asked, ih]

theorem mem_asked {es : List Event} {i : Int} : i ∈ asked es ↔ ∃ row, Event.get i row ∈ es := by
  induction es with
  | nil => simp [asked]
  | cons x es ih =>
    cases x with
    | get i' row' =>
      simp only [asked, List.mem_cons, ih, Event.get.injEq]
      constructor
      · rintro (rfl | ⟨row, h⟩)
        · exact ⟨row', .inl ⟨rfl, rfl⟩⟩
        · exact ⟨row, .inr h⟩
      · rintro ⟨row, ⟨rfl, _⟩ | h⟩
        · exact .inl rfl
        · exact .inr ⟨row, h⟩
    | _ => simp [asked, ih]

/-- Rows that give the answers, if no item was asked for twice. -/
theorem rows_exist (es : List Event) (hn : (asked es).Nodup) :
    ∃ rows : Int → List GoString, ∀ i row, Event.get i row ∈ es → row = rows i := by
  induction es with
  | nil => exact ⟨fun _ => [], by simp⟩
  | cons x es ih =>
    cases x with
    | len n =>
      obtain ⟨rows, h⟩ := ih hn
      exact ⟨rows, fun i row hr => h i row (by simpa using hr)⟩
    | write s b =>
      obtain ⟨rows, h⟩ := ih hn
      exact ⟨rows, fun i row hr => h i row (by simpa using hr)⟩
    | get i row =>
      simp only [asked, List.nodup_cons] at hn
      obtain ⟨rows, h⟩ := ih hn.2
      refine ⟨fun k => if k = i then row else rows k, fun i' row' hr => ?_⟩
      rcases List.mem_cons.mp hr with hm | hm
      · cases hm; simp
      · have : i' ≠ i := by
          rintro rfl
          exact hn.1 (mem_asked.mpr ⟨row', hm⟩)
        simp only [this, if_false]
        exact h i' row' hm

theorem enough_append {a b : List (Event × Nat)} (ha : ∀ call ∈ a, Enough call) (hb : ∀ call ∈ b, Enough call) :
    ∀ call ∈ a ++ b, Enough call := fun call h => (List.mem_append.mp h).elim (ha call) (hb call)

theorem enough_len (n : Int) (m : Nat) : Enough (.len n, m) := fun _ _ h => by cases h
theorem enough_write (s : GoString) (b : Bool) (m : Nat) : Enough (.write s b, m) := fun _ _ h => by cases h
theorem enough_get {i : Int} {row : List GoString} {m : Nat} : Enough (.get i row, m) ↔ m ≤ row.length :=
  ⟨fun h => h i row rfl, fun h _ _ he => by cases he; exact h⟩

theorem follows_append {s : List (Event × Nat)} {es : List Event} {e : Ending Unit} (a : List (Event × Nat))
    (ha : ∀ call ∈ a, Enough call) (h : Follows s es e) : Follows (a ++ s) (a.map Prod.fst ++ es) e := by
  cases h with
  | all _ h => rw [← List.map_append]; exact .all _ (enough_append ha h)
  | write b text c h =>
    rw [← List.append_assoc, ← List.append_assoc, ← List.map_append]
    exact .write (a ++ b) text c (enough_append ha h)
  | short b i row m c h hs =>
    rw [← List.append_assoc, ← List.append_assoc, ← List.map_append]
    exact .short (a ++ b) i row m c (enough_append ha h) hs

/-! ## Printing -/

/-- The parts of a line. -/
def partsOf (f : Flags) (cols : List (Column σ ι ν ε)) (w : Nat → Nat → UInt16) (rows : Nat → List GoString)
    (g j : Nat) (shown : List Nat) : List GoString :=
  (shown.mapIdx fun i k => itemText f cols (w (j + i)) (rows k)) ++ if shown.length < g - j then [[]] else []

theorem line_talk (f : Flags) (t : Table σ ι ν ε) (n : Int) (gw : Nat → Nat → Except Panic UInt16)
    (w : Nat → Nat → UInt16) (index : Nat → Nat) (g j : Nat)
    (hw : ∀ c j, c < t.columns.length → j < g → gw c j = .ok (w j c)) (rows : Nat → List GoString)
    {es : List Event} {e : Ending (List GoString)} (h : Talks (lineGroupsT f t n gw index g j) es e)
    (hr : ∀ (k : Nat) row, Event.get k row ∈ es → row = rows k) :
    (e = .returned (partsOf f t.columns w rows g j (shownFrom n.toNat index g j)) ∧
      (es = (shownFrom n.toNat index g j).map fun (k : Nat) => .get k (rows k)) ∧
      ∀ k ∈ shownFrom n.toNat index g j, t.columns.length ≤ (rows k).length) ∨
    (e = .panicked .index ∧ ∃ a k b, shownFrom n.toNat index g j = a ++ k :: b ∧
      es = (a ++ [k]).map (fun (k : Nat) => .get k (rows k)) ∧ (∀ k ∈ a, t.columns.length ≤ (rows k).length) ∧
      (rows k).length < t.columns.length) := by
  fun_induction shownFrom n.toNat index g j generalizing es e with
  | case1 j hj hn =>
    rw [lineGroupsT] at h
    simp only [hj, if_true] at h
    rw [if_pos (by omega)] at h
    cases h
    left
    refine ⟨?_, rfl, by simp⟩
    simp only [partsOf, List.mapIdx_nil, List.nil_append, List.length_nil]
    rw [if_pos (by omega)]
  | case2 j hj hn ih =>
    rw [lineGroupsT] at h
    simp only [hj, if_true] at h
    rw [if_neg (by omega)] at h
    obtain ⟨row, es', rfl, h'⟩ := talks_askGet h
    replace h := h'
    have hrow := hr (index j) row (by simp)
    subst hrow
    by_cases hs : (rows (index j)).length < t.columns.length
    · rw [renderCells_short f gw j _ (w j) t.columns 0 (fun c _ hc => hw c j (by omega) hj)
        (by omega) (Nat.zero_le _)] at h
      cases h
      exact .inr ⟨rfl, [], index j, _, rfl, rfl, by simp, hs⟩
    · rw [renderCells_ok f gw j _ (w j) t.columns 0 (fun c _ hc => hw c j (by omega) hj) (by omega)] at h
      change Talks (lineGroupsT f t n gw index g (j + 1) >>= _) es' e at h
      rcases talks_bind h with ⟨es1, a, es2, rfl, h1, h2⟩ | ⟨q, rfl, h1⟩ | ⟨rfl, h1⟩
      · cases h2
        rcases ih h1 (fun k row hk => hr k row (by simp [hk])) with ⟨h3, h4, h5⟩ | ⟨h3, _⟩
        · cases h3
          left
          refine ⟨?_, by simp [h4], by simpa [Nat.not_lt.mp hs] using h5⟩
          simp only [partsOf, List.mapIdx_cons, List.length_cons, Nat.add_zero, List.cons_append, List.drop_zero,
            Nat.zero_add]
          congr 2
          · rw [join_eq]; rfl
          · congr 1
            · congr 1
              funext i k
              rw [show j + 1 + i = j + (i + 1) by omega]
            · have : ((shownFrom n.toNat index g (j + 1)).length < g - (j + 1)) ↔
                  ((shownFrom n.toNat index g (j + 1)).length + 1 < g - j) := by omega
              simp only [this]
        · cases h3
      · rcases ih h1 (fun k row hk => hr k row (by simp [hk])) with ⟨h3, h4⟩ | ⟨h3, a, k, b, h4, h5, h6, h7⟩
        · cases h3
        · cases h3
          exact .inr ⟨rfl, index j :: a, k, b, by simp [h4], by simp [h5], by simpa [Nat.not_lt.mp hs] using h6, h7⟩
      · rcases ih h1 (fun k row hk => hr k row (by simp [hk])) with ⟨h3, h4⟩ | ⟨h3, _⟩ <;> cases h3
  | case3 j hj =>
    rw [lineGroupsT] at h
    simp only [hj, if_false] at h
    cases h
    left
    refine ⟨?_, rfl, by simp⟩
    simp only [partsOf, List.mapIdx_nil, List.nil_append, List.length_nil]
    rw [if_neg (by omega)]

/-- The items a line asks for, whatever the answers. -/
theorem line_asked (f : Flags) (t : Table σ ι ν ε) (n : Int) (gw : Nat → Nat → Except Panic UInt16)
    (index : Nat → Nat) (g j : Nat)
    {es : List Event} {e : Ending (List GoString)} (h : Talks (lineGroupsT f t n gw index g j) es e) :
    asked es <+: (shownFrom n.toNat index g j).map (fun k : Nat => (k : Int)) ∧
    ∀ a, e = .returned a → asked es = (shownFrom n.toNat index g j).map (fun k : Nat => (k : Int)) := by
  fun_induction shownFrom n.toNat index g j generalizing es e with
  | case1 j hj hn =>
    rw [lineGroupsT] at h
    simp only [hj, if_true] at h
    rw [if_pos (by omega)] at h
    cases h
    simp [asked]
  | case2 j hj hn ih =>
    rw [lineGroupsT] at h
    simp only [hj, if_true] at h
    rw [if_neg (by omega)] at h
    obtain ⟨row, es', rfl, h'⟩ := talks_askGet h
    replace h := h'
    have key : asked es' <+: (shownFrom n.toNat index g (j + 1)).map (fun k : Nat => (k : Int)) ∧
        ∀ a, e = .returned a → asked es' = (shownFrom n.toNat index g (j + 1)).map (fun k : Nat => (k : Int)) := by
      cases hc : renderCells f gw j row t.columns 0 with
      | error p =>
        rw [hc] at h
        cases h
        exact ⟨by simp [asked], fun a h => by cases h⟩
      | ok cells =>
        rw [hc] at h
        change Talks (lineGroupsT f t n gw index g (j + 1) >>= _) es' e at h
        rcases talks_bind h with ⟨es1, a, es2, rfl, h1, h2⟩ | ⟨q, rfl, h1⟩ | ⟨rfl, h1⟩
        · cases h2
          simp only [List.append_nil]
          exact ⟨(ih h1).1, fun _ _ => (ih h1).2 a rfl⟩
        · exact ⟨(ih h1).1, fun a h => by cases h⟩
        · exact ⟨(ih h1).1, fun a h => by cases h⟩
    simp only [asked, List.map_cons]
    exact ⟨(List.cons_prefix_cons).mpr ⟨rfl, key.1⟩, fun a ha => by rw [key.2 a ha]⟩
  | case3 j hj =>
    rw [lineGroupsT] at h
    simp only [hj, if_false] at h
    cases h
    simp [asked]

/-- The calls of lines `i`, `i + 1`, … up to line `L`. -/
def linesScript (f : Flags) (cols : List (Column σ ι ν ε)) (w : Nat → Nat → UInt16) (sep : GoString) (g : Nat)
    (rows : Nat → List GoString) (onLine : Nat → List Nat) (L i : Nat) : List (Event × Nat) :=
  (List.range' i (L - i)).flatMap fun i =>
    ((onLine i).map fun k => (.get k (rows k), cols.length)) ++
      [(.write (lineText f cols w sep rows g (onLine i) ++ [0x0A]) false, 0)]

theorem lines_talk (f : Flags) (t : Table σ ι ν ε) (n : Int) (gw : Nat → Nat → Except Panic UInt16)
    (w : Nat → Nat → UInt16) (index : Nat → Nat → Nat) (g : Nat) (sep : GoString)
    (hw : ∀ c j, c < t.columns.length → j < g → gw c j = .ok (w j c)) (rows : Nat → List GoString) (L i : Nat)
    {es : List Event} {e : Ending Unit}
    (h : Talks (writeLinesT sep (fun i => lineGroupsT f t n gw (index i) g 0) L i) es e)
    (hr : ∀ (k : Nat) row, Event.get k row ∈ es → row = rows k) :
    Follows (linesScript f t.columns w sep g rows (fun i => shownFrom n.toNat (index i) g 0) L i) es e := by
  generalize hd : L - i = d
  induction d generalizing i es e with
  | zero =>
    rw [writeLinesT, if_neg (by omega)] at h
    cases h
    rw [linesScript, hd]
    exact .all _ (by simp)
  | succ d ih =>
    rw [writeLinesT, if_pos (by omega)] at h
    rw [linesScript, hd, List.range'_succ, List.flatMap_cons]
    rcases talks_bind h with ⟨es1, parts, es2, rfl, h1, h2⟩ | ⟨q, rfl, h1⟩ | ⟨rfl, h1⟩
    · rcases line_talk f t n gw w (index i) g 0 hw rows h1 (fun k row hk => hr k row (by simp [hk])) with
        ⟨h3, h4, h6⟩ | ⟨h3, _⟩
      · cases h3
        subst h4
        have henough : ∀ call ∈ (shownFrom n.toNat (index i) g 0).map fun (k : Nat) =>
            (Event.get k (rows k), t.columns.length), Enough call := by
          intro call hc
          obtain ⟨k, hk, rfl⟩ := List.mem_map.mp hc
          exact enough_get.mpr (h6 k hk)
        have hfst : ((shownFrom n.toNat (index i) g 0).map fun (k : Nat) => Event.get k (rows k)) =
            ((shownFrom n.toNat (index i) g 0).map fun (k : Nat) =>
              (Event.get k (rows k), t.columns.length)).map Prod.fst := by
          rw [List.map_map]; rfl
        rw [hfst]
        obtain ⟨b, es3, rfl, h5⟩ := talks_askWrite h2
        have htext : join sep (partsOf f t.columns w rows g 0 (shownFrom n.toNat (index i) g 0)) ++ lit "\n" =
            lineText f t.columns w sep rows g (shownFrom n.toNat (index i) g 0) ++ [0x0A] := by
          rw [join_eq, lit_newline]
          simp [partsOf, lineText]
        rw [htext]
        cases b with
        | true =>
          simp only [if_true] at h5
          cases h5
          rw [List.append_assoc]
          exact .write _ _ _ henough
        | false =>
          simp only [Bool.false_eq_true, if_false] at h5
          have := ih (i + 1) h5 (fun k row hk => hr k row (by simp [hk])) (by omega)
          rw [linesScript, show L - (i + 1) = d by omega] at this
          rw [List.append_assoc]
          refine follows_append _ henough ?_
          exact follows_append [(_, 0)] (by simpa using enough_write _ _ _) this
      · cases h3
    · rcases line_talk f t n gw w (index i) g 0 hw rows h1 (fun k row hk => hr k row hk) with
        ⟨h3, h4⟩ | ⟨h3, a, k, b, h4, h5, h6, h7⟩
      · cases h3
      · cases h3
        subst h5
        rw [h4, List.map_append, List.map_cons, List.append_assoc, List.append_assoc, List.cons_append,
          List.map_append, List.map_cons, List.map_nil]
        have hfst : (a.map fun (k : Nat) => Event.get k (rows k)) =
            (a.map fun (k : Nat) => (Event.get k (rows k), t.columns.length)).map Prod.fst := by
          rw [List.map_map]; rfl
        rw [hfst]
        refine .short _ _ _ _ _ (fun call hc => ?_) h7
        obtain ⟨k, hk, rfl⟩ := List.mem_map.mp hc
        exact enough_get.mpr (h6 k hk)
    · rcases line_talk f t n gw w (index i) g 0 hw rows h1 (fun k row hk => hr k row hk) with
        ⟨h3, h4⟩ | ⟨h3, _⟩ <;> cases h3

theorem lines_asked (f : Flags) (t : Table σ ι ν ε) (n : Int) (gw : Nat → Nat → Except Panic UInt16)
    (index : Nat → Nat → Nat) (g : Nat) (sep : GoString) (L i : Nat)
    {es : List Event} {e : Ending Unit}
    (h : Talks (writeLinesT sep (fun i => lineGroupsT f t n gw (index i) g 0) L i) es e) :
    asked es <+: ((List.range' i (L - i)).flatMap fun i => shownFrom n.toNat (index i) g 0).map
      (fun k : Nat => (k : Int)) := by
  generalize hd : L - i = d
  induction d generalizing i es e with
  | zero =>
    rw [writeLinesT, if_neg (by omega)] at h
    cases h
    simp [asked]
  | succ d ih =>
    rw [writeLinesT, if_pos (by omega)] at h
    rw [List.range'_succ, List.flatMap_cons, List.map_append]
    rcases talks_bind h with ⟨es1, parts, es2, rfl, h1, h2⟩ | ⟨q, rfl, h1⟩ | ⟨rfl, h1⟩
    · obtain ⟨b, es3, rfl, h5⟩ := talks_askWrite h2
      rw [asked_append, (line_asked f t n gw (index i) g 0 h1).2 _ rfl]
      rw [List.prefix_append_right_inj]
      simp only [asked]
      cases b with
      | true => cases h5; simp [asked]
      | false => exact ih (i + 1) h5 (by omega)
    · exact (line_asked f t n gw (index i) g 0 h1).1.trans (List.prefix_append _ _)
    · exact (line_asked f t n gw (index i) g 0 h1).1.trans (List.prefix_append _ _)

theorem linesClaimed_eq (n : Int) (g : Nat) (hg : 0 < g) : (lineCountT n g).toNat = linesClaimed n g := by
  unfold linesClaimed
  by_cases hn : 0 < n
  · rw [if_pos hn, ← lineCountOf_eq n.toNat g (by omega) hg]
    unfold lineCountT lineCountOf
    rw [show ((n.toNat : Nat) : Int) = n by omega]
  · rw [if_neg hn]
    unfold lineCountT
    rw [show n - 1 = -(1 - n) by omega, Int.neg_tdiv, Int.tdiv_eq_ediv_of_nonneg (by omega)]
    by_cases h : 1 - n < g
    · rw [if_pos h, Int.ediv_eq_zero_of_lt (by omega) h]; rfl
    · rw [if_neg h]
      have : 1 ≤ (1 - n) / (g : Int) := by
        rw [Int.le_ediv_iff_mul_le (by omega)]; omega
      omega

theorem nodup_cast {l : List Nat} (h : l.Nodup) : (l.map (fun k : Nat => (k : Int))).Nodup :=
  List.Nodup.map (fun a b h => by exact_mod_cast h) h

theorem flatMap_nil_of {γ δ : Type} (l : List γ) (g : γ → List δ) (h : ∀ x ∈ l, g x = []) : l.flatMap g = [] := by
  rw [List.flatMap_eq_nil_iff]; exact h

theorem nodup_onLineH (n : Int) (g : Nat) (hg : 0 < g) :
    ((List.range (linesClaimed n g)).flatMap (onLineH n.toNat g)).Nodup := by
  by_cases hn : 0 < n
  · rw [linesClaimed, if_pos hn, C30_each_once n.toNat g hg]
    exact List.nodup_range
  · rw [flatMap_nil_of]
    · exact List.nodup_nil
    · intro i _
      simp [onLineH, show n.toNat = 0 by omega]

theorem nodup_onLineV (n : Int) (g : Nat) (hg : 0 < g) :
    ((List.range (linesClaimed n g)).flatMap (onLineV n.toNat g (linesClaimed n g))).Nodup := by
  by_cases hn : 0 < n
  · rw [linesClaimed, if_pos hn]
    exact (C31_each_once n.toNat g (by omega) hg).nodup_iff.mpr List.nodup_range
  · rw [flatMap_nil_of]
    · exact List.nodup_nil
    · intro i _
      simp [onLineV, show n.toNat = 0 by omega]

theorem printHT_follows (f : Flags) (t : Table σ ι ν ε) (sep : GoString) (g : Nat) (hg : 0 < g)
    (gw : Nat → Nat → Except Panic UInt16) (w : Nat → Nat → UInt16)
    (hw : ∀ c j, c < t.columns.length → j < g → gw c j = .ok (w j c))
    {es : List Event} {e : Ending Unit} (h : Talks (printHT f t sep g gw) es e) :
    ∃ n rows, Follows (script f t.columns w sep g n rows (onLineH n.toNat g)) es e := by
  obtain ⟨n, es', rfl, h'⟩ := talks_askLen h
  replace h := h'
  rw [linesClaimed_eq n g hg] at h
  have ha := lines_asked f t n gw (fun i => indexH g i) g sep _ 0 h
  simp only [onLineH_eq, Nat.sub_zero, ← List.range_eq_range'] at ha
  obtain ⟨rows, hr⟩ := rows_exist es' ((nodup_cast (nodup_onLineH n g hg)).sublist ha.sublist)
  refine ⟨n, fun k => rows k, ?_⟩
  have := lines_talk f t n gw w (fun i => indexH g i) g sep hw (fun k => rows k) _ 0 h (fun k row hk => hr k row hk)
  simp only [linesScript, onLineH_eq, Nat.sub_zero, ← List.range_eq_range'] at this
  exact follows_append [(_, 0)] (by simpa using enough_len _ _) this

theorem printVT_follows (f : Flags) (t : Table σ ι ν ε) (sep : GoString) (g : Nat) (hg : 0 < g)
    (gw : Nat → Nat → Except Panic UInt16) (w : Nat → Nat → UInt16)
    (hw : ∀ c j, c < t.columns.length → j < g → gw c j = .ok (w j c))
    {es : List Event} {e : Ending Unit} (h : Talks (printVT f t sep g gw) es e) :
    ∃ n rows, Follows
      (script f t.columns w sep g n rows (onLineV n.toNat g (linesFor n.toNat g))) es e := by
  suffices hx : ∃ n rows, Follows
      (script f t.columns w sep g n rows (onLineV n.toNat g (linesClaimed n g))) es e by
    obtain ⟨n, rows, hx⟩ := hx
    refine ⟨n, rows, ?_⟩
    have : onLineV n.toNat g (linesFor n.toNat g) = onLineV n.toNat g (linesClaimed n g) := by
      by_cases hn : 0 < n
      · rw [linesClaimed, if_pos hn]
      · funext i
        simp [onLineV, show n.toNat = 0 by omega]
    rw [this]
    exact hx
  obtain ⟨n, es', rfl, h'⟩ := talks_askLen h
  replace h := h'
  simp only [linesClaimed_eq n g hg] at h
  have ha := lines_asked f t n gw (fun i => indexV (linesClaimed n g) i) g sep _ 0 h
  simp only [onLineV_eq, Nat.sub_zero, ← List.range_eq_range'] at ha
  obtain ⟨rows, hr⟩ := rows_exist es' ((nodup_cast (nodup_onLineV n g hg)).sublist ha.sublist)
  refine ⟨n, fun k => rows k, ?_⟩
  have := lines_talk f t n gw w (fun i => indexV (linesClaimed n g) i) g sep hw (fun k => rows k) _ 0 h
    (fun k row hk => hr k row hk)
  simp only [linesScript, onLineV_eq, Nat.sub_zero, ← List.range_eq_range'] at this
  exact follows_append [(_, 0)] (by simpa using enough_len _ _) this

/-! ## Searching -/

theorem recorded_eq (t : Table σ ι ν ε) : recorded t = wT t := rfl

/-- A part of the measuring: its calls are `S d` for some answers `d`, and it returns `R d`; or it stops in the
middle of `S d`, at the first answer with too few cells. -/
def MeasurePart {δ : Type} (p : Talk α) (S : δ → List (Event × Nat)) (R : δ → α) : Prop :=
  ∀ es e, Talks p es e → ∃ d, (es = (S d).map Prod.fst ∧ e = .returned (R d) ∧ ∀ call ∈ S d, Enough call) ∨
    (e = .panicked .index ∧ ∃ a i row m b, S d = a ++ (.get i row, m) :: b ∧
      es = a.map Prod.fst ++ [.get i row] ∧ (∀ call ∈ a, Enough call) ∧ row.length < m)

theorem part_mapM {γ δ : Type} [DecidableEq γ] [Inhabited δ] (l : List γ) (hl : l.Nodup)
    (p : γ → Talk α) (S : γ → δ → List (Event × Nat)) (R : γ → δ → α)
    (h : ∀ x ∈ l, MeasurePart (p x) (S x) (R x)) :
    MeasurePart (l.mapM p) (fun D : γ → δ => l.flatMap fun x => S x (D x)) (fun D => l.map fun x => R x (D x)) := by
  intro es e ht
  induction l generalizing es e with
  | nil =>
    rw [List.mapM_nil] at ht
    cases ht
    exact ⟨fun _ => default, .inl ⟨rfl, rfl, by simp⟩⟩
  | cons x l ih =>
    rw [List.nodup_cons] at hl
    have ih := ih hl.2 (fun y hy => h y (by simp [hy]))
    rw [List.mapM_cons] at ht
    have upd : ∀ (d : δ) (D : γ → δ) {κ : Type} (F : γ → δ → κ),
        (l.map fun y => F y (if y = x then d else D y)) = l.map fun y => F y (D y) := by
      intro d D κ F
      apply List.map_congr_left
      intro y hy
      rw [if_neg (by rintro rfl; exact hl.1 hy)]
    have updF : ∀ (d : δ) (D : γ → δ),
        (l.flatMap fun y => S y (if y = x then d else D y)) = l.flatMap fun y => S y (D y) := by
      intro d D
      simp only [List.flatMap_def]
      rw [upd d D S]
    rcases talks_bind ht with ⟨es1, a, es2, rfl, h1, h2⟩ | ⟨q, rfl, h1⟩ | ⟨rfl, h1⟩
    · obtain ⟨d, ⟨rfl, h3, h4⟩ | ⟨h3, _⟩⟩ := h x (by simp) es1 _ h1
      swap
      · cases h3
      cases h3
      rcases talks_bind h2 with ⟨es3, b, es4, rfl, h5, h6⟩ | ⟨q, rfl, h5⟩ | ⟨rfl, h5⟩
      · cases h6
        obtain ⟨D, ⟨rfl, h7, h8⟩ | ⟨h7, _⟩⟩ := ih es3 _ h5
        · cases h7
          refine ⟨fun y => if y = x then d else D y, .inl ⟨?_, ?_, ?_⟩⟩
          · simp [updF]
          · simp only [List.map_cons, if_true, upd]
          · simp only [List.flatMap_cons, if_true, updF]
            exact enough_append h4 h8
        · cases h7
      · obtain ⟨D, ⟨rfl, h7, h8⟩ | ⟨h7, a', i, row, m, b', h9, rfl, h10, h11⟩⟩ := ih es2 _ h5
        · cases h7
        · cases h7
          refine ⟨fun y => if y = x then d else D y, .inr ⟨rfl, S x d ++ a', i, row, m, b', ?_, by simp,
            enough_append h4 h10, h11⟩⟩
          simp only [List.flatMap_cons, if_true, updF, h9, List.append_assoc]
      · obtain ⟨D, ⟨rfl, h7, h8⟩ | ⟨h7, _⟩⟩ := ih es2 _ h5 <;> cases h7
    · obtain ⟨d, ⟨rfl, h3, h4⟩ | ⟨h3, a', i, row, m, b', h9, rfl, h10, h11⟩⟩ := h x (by simp) es _ h1
      · cases h3
      · cases h3
        refine ⟨fun y => d, .inr ⟨rfl, a', i, row, m, b' ++ l.flatMap fun y => S y d, ?_, rfl, h10, h11⟩⟩
        simp only [List.flatMap_cons, h9, List.append_assoc, List.cons_append]
    · obtain ⟨d, ⟨rfl, h3, h4⟩ | ⟨h3, _⟩⟩ := h x (by simp) es _ h1 <;> cases h3

/-- The running maximum of the cells' widths. -/
def widestOf (f : Flags) (c : Nat) (d : Nat → List GoString) : List Nat → UInt16 → UInt16
  | [], mw => mw
  | k :: ks, mw =>
    let w := visualWidth f ((d k)[c]?.getD [])
    widestOf f c d ks (if w > mw then w else mw)

theorem widestOf_congr (f : Flags) (c : Nat) (d d' : Nat → List GoString) (ks : List Nat) (mw : UInt16)
    (h : ∀ k ∈ ks, d k = d' k) : widestOf f c d ks mw = widestOf f c d' ks mw := by
  induction ks generalizing mw with
  | nil => rfl
  | cons k ks ih =>
    simp only [widestOf]
    rw [h k (by simp), ih _ fun k' hk => h k' (by simp [hk])]

theorem widestOf_ge (f : Flags) (c : Nat) (d : Nat → List GoString) (ks : List Nat) (mw : UInt16) :
    mw ≤ widestOf f c d ks mw := by
  induction ks generalizing mw with
  | nil => exact UInt16.le_refl _
  | cons k ks ih =>
    simp only [widestOf]
    refine UInt16.le_trans ?_ (ih _)
    split
    · rename_i h; exact UInt16.le_of_lt h
    · exact UInt16.le_refl _

theorem widestOf_spec (f : Flags) (c : Nat) (d : Nat → List GoString) (ks : List Nat) (mw : UInt16) :
    (∀ k ∈ ks, visualWidth f ((d k)[c]?.getD []) ≤ widestOf f c d ks mw) ∧
    (widestOf f c d ks mw = mw ∨ ∃ k ∈ ks, visualWidth f ((d k)[c]?.getD []) = widestOf f c d ks mw) := by
  induction ks generalizing mw with
  | nil => simp [widestOf]
  | cons k ks ih =>
    simp only [widestOf]
    generalize hx : visualWidth f ((d k)[c]?.getD []) = x
    obtain ⟨h1, h2⟩ := ih (if x > mw then x else mw)
    have hge := widestOf_ge f c d ks (if x > mw then x else mw)
    refine ⟨fun k' hk' => ?_, ?_⟩
    · rcases List.mem_cons.mp hk' with rfl | hk'
      · rw [hx]
        refine UInt16.le_trans ?_ hge
        split
        · exact UInt16.le_refl _
        · rename_i h; exact UInt16.not_lt.mp h
      · exact h1 k' hk'
    · rcases h2 with h2 | ⟨k', hk', h2⟩
      · rw [h2]
        split
        · exact .inr ⟨k, by simp, hx⟩
        · exact .inl rfl
      · exact .inr ⟨k', by simp [hk'], h2⟩

/-- Items `k`, `k + g`, … below `n`. -/
def stepsFrom (n g k : Nat) : List Nat := if k < n ∧ 0 < g then k :: stepsFrom n g (k + g) else []
termination_by n - k

theorem stepsFrom_lt (n g k x : Nat) (h : x ∈ stepsFrom n g k) : k ≤ x := by
  fun_induction stepsFrom n g k with
  | case1 k hk ih =>
    rcases List.mem_cons.mp h with rfl | h
    · exact Nat.le_refl _
    · have := ih h; omega
  | case2 k hk => simp at h

theorem part_one (f : Flags) (c i : Nat) (ks : List Nat) (hi : i ∉ ks)
    (mw : UInt16) (q : UInt16 → Talk UInt16)
    (h : ∀ mw, MeasurePart (q mw) (fun d : Nat → List GoString => ks.map fun k : Nat => (.get k (d k), c + 1))
      (fun d => widestOf f c d ks mw)) :
    MeasurePart (do
        let item ← askGet i
        let s ← Talk.ofExcept (cellAt item c)
        let w := visualWidth f s
        q (if w > mw then w else mw))
      (fun d : Nat → List GoString => (i :: ks).map fun k : Nat => (.get k (d k), c + 1))
      (fun d => widestOf f c d (i :: ks) mw) := by
  intro es e ht
  obtain ⟨row, es', rfl, h'⟩ := talks_askGet ht
  unfold cellAt at h'
  cases hx : row[c]? with
  | none =>
    rw [hx] at h'
    cases h'
    refine ⟨fun _ => row, .inr ⟨rfl, [], i, row, _, _, rfl, rfl, by simp, ?_⟩⟩
    have := List.getElem?_eq_none_iff.mp hx
    omega
  | some x =>
    rw [hx] at h'
    have upd : ∀ (d : Nat → List GoString) k, k ∈ ks → (if k = i then row else d k) = d k := by
      intro d k hk
      rw [if_neg (by rintro rfl; exact hi hk)]
    have updM : ∀ (d : Nat → List GoString),
        (ks.map fun k : Nat => (Event.get k (if k = i then row else d k), c + 1)) =
          ks.map fun k : Nat => (Event.get k (d k), c + 1) := by
      intro d
      apply List.map_congr_left
      intro k hk
      rw [upd d k hk]
    obtain ⟨d, ⟨rfl, rfl, h3⟩ | ⟨rfl, a, j, r, m, b, h4, rfl, h5, h6⟩⟩ := h _ es' e h'
    · refine ⟨fun k => if k = i then row else d k, .inl ⟨?_, ?_, ?_⟩⟩
      · simp only [List.map_cons, if_true, updM]
      · simp only [widestOf, if_true, hx, Option.getD_some]
        rw [widestOf_congr f c _ d ks _ (upd d)]
      · simp only [List.map_cons, if_true, updM]
        exact enough_append (a := [_]) (by simpa using enough_get.mpr (List.getElem?_eq_some_iff.mp hx).1) h3
    · refine ⟨fun k => if k = i then row else d k, .inr ⟨rfl, (.get i row, c + 1) :: a, j, r, m, b, ?_, rfl,
        enough_append (a := [_]) (by simpa using enough_get.mpr (List.getElem?_eq_some_iff.mp hx).1) h5, h6⟩⟩
      simp only [List.map_cons, if_true, updM, h4, List.cons_append]

theorem part_done (f : Flags) (c : Nat) (mw : UInt16) :
    MeasurePart (.ret mw) (fun d : Nat → List GoString => [].map fun k : Nat => (Event.get k (d k), c + 1))
      (fun d => widestOf f c d [] mw) := by
  intro es e h
  cases h
  exact ⟨fun _ => [], .inl ⟨rfl, rfl, by simp⟩⟩

theorem part_maxH (f : Flags) (n : Int) (c g k : Nat) (mw : UInt16) :
    MeasurePart (maxCellWidthHT f n c g k mw)
      (fun d : Nat → List GoString => (stepsFrom n.toNat g k).map fun k : Nat => (.get k (d k), c + 1))
      (fun d => widestOf f c d (stepsFrom n.toNat g k) mw) := by
  fun_induction stepsFrom n.toNat g k generalizing mw with
  | case1 k h ih =>
    rw [maxCellWidthHT, dif_pos (by omega)]
    refine part_one f c k _ (fun hm => ?_) mw (fun mw => maxCellWidthHT f n c g (k + g) mw) ih
    have := stepsFrom_lt _ _ _ _ hm
    omega
  | case2 k h =>
    rw [maxCellWidthHT, dif_neg (by omega)]
    exact part_done f c mw

theorem part_maxV (f : Flags) (c : Nat) (stop k : Int) (mw : UInt16)
    (h0 : k < stop → 0 ≤ k) :
    MeasurePart (maxCellWidthVT f c stop k mw)
      (fun d : Nat → List GoString => (stepsFrom stop.toNat 1 k.toNat).map fun k : Nat => (.get k (d k), c + 1))
      (fun d => widestOf f c d (stepsFrom stop.toNat 1 k.toNat) mw) := by
  generalize hd : (stop - k).toNat = m
  induction m generalizing k mw with
  | zero =>
    rw [maxCellWidthVT, if_neg (by omega), stepsFrom, if_neg (by omega)]
    exact part_done f c mw
  | succ m ih =>
    have hk : k < stop := by omega
    have hk0 := h0 hk
    rw [maxCellWidthVT, if_pos hk, stepsFrom, if_pos (by omega)]
    have key := part_one f c k.toNat (stepsFrom stop.toNat 1 (k.toNat + 1)) (fun hm => by
      have := stepsFrom_lt _ _ _ _ hm
      omega) mw (fun mw => maxCellWidthVT f c stop (k + 1) mw) (fun mw => by
        have := ih (k + 1) mw (by omega) (by omega)
        rw [show (k + 1).toNat = k.toNat + 1 by omega] at this
        exact this)
    rw [show ((k.toNat : Nat) : Int) = k by omega] at key
    exact key

theorem stepsFrom_eq (m g a i d : Nat) (hg : 0 < g) (h : m ≤ a + (i + d) * g) :
    stepsFrom m g (a + i * g) = ((List.range' i d).map fun i => a + i * g).filter (· < m) := by
  induction d generalizing i with
  | zero =>
    rw [stepsFrom, if_neg (by simp only [Nat.add_zero] at h; omega)]
    rfl
  | succ d ih =>
    have h' := ih (i + 1) (by rw [show i + 1 + d = i + (d + 1) by omega]; exact h)
    rw [List.range'_succ, List.map_cons, List.filter_cons]
    by_cases hm : a + i * g < m
    · rw [stepsFrom, if_pos ⟨hm, hg⟩, if_pos (by simpa using hm), ← h', Nat.add_mul, Nat.one_mul, Nat.add_assoc]
    · rw [stepsFrom, if_neg (by omega), if_neg (by simpa using hm), ← h', stepsFrom, if_neg]
      rw [Nat.add_mul]; omega

theorem stepsFrom_downH (n g j : Nat) (hg : 0 < g) : stepsFrom n g j = downH n g j := by
  have h := stepsFrom_eq n g j 0 (linesFor n g) hg (by
    rw [Nat.zero_add]
    unfold linesFor
    have h1 := Nat.div_add_mod (n + g - 1) g
    have h2 := Nat.mod_lt (n + g - 1) hg
    rw [Nat.mul_comm]; omega)
  rw [Nat.zero_mul, Nat.add_zero] at h
  rw [h, downH, ← List.range_eq_range']
  simp only [Nat.add_comm]

theorem stepsFrom_downV (n g j : Nat) :
    stepsFrom (min ((j + 1) * linesFor n g) n) 1 (j * linesFor n g) = downV n g j := by
  have h := stepsFrom_eq (min ((j + 1) * linesFor n g) n) 1 (j * linesFor n g) 0 (linesFor n g) (by omega) (by
    rw [Nat.zero_add, Nat.mul_one, Nat.add_mul]; omega)
  rw [Nat.zero_mul] at h
  change stepsFrom _ 1 (j * linesFor n g) = _ at h
  rw [h, downV, ← List.range_eq_range']
  simp only [Nat.mul_one]
  apply List.filter_congr
  intro k hk
  obtain ⟨i, hi, rfl⟩ := List.mem_map.mp hk
  have := List.mem_range.mp hi
  rw [Nat.add_mul, Nat.one_mul]
  simp only [decide_eq_decide]
  omega

theorem measured_of (f : Flags) (cols g : Nat) (down : Nat → List Nat) (D : Nat → Nat → Nat → List GoString)
    (h : ∀ call ∈ (List.range g).flatMap fun j => (List.range cols).flatMap fun c =>
      (down j).map fun (k : Nat) => (Event.get k (D j c k), c + 1), Enough call) :
    Measured (visualWidth f) cols g down D (fun j c => widestOf f c (D j c) (down j) 0) := by
  intro j c hj hc
  have hl : ∀ k ∈ down j, c < (D j c k).length := fun k hk => enough_get.mp (h _ (List.mem_flatMap.mpr
    ⟨j, List.mem_range.mpr hj, List.mem_flatMap.mpr ⟨c, List.mem_range.mpr hc, List.mem_map.mpr ⟨k, hk, rfl⟩⟩⟩))
  obtain ⟨h1, h2⟩ := widestOf_spec f c (D j c) (down j) 0
  refine ⟨fun k hk => ⟨_, List.getElem?_eq_getElem (hl k hk), ?_⟩, h2.imp_right ?_⟩
  · have := h1 k hk
    rwa [List.getElem?_eq_getElem (hl k hk)] at this
  · rintro ⟨k, hk, h3⟩
    rw [List.getElem?_eq_getElem (hl k hk)] at h3
    exact ⟨k, hk, _, List.getElem?_eq_getElem (hl k hk), h3⟩

/-- The widths in the order in which they are kept. -/
def tableOf (cols g : Nat) (w : Nat → Nat → UInt16) : List UInt16 :=
  (List.range g).flatMap fun j => (List.range cols).map (w j)

theorem mergedRowsWidthHT_eq (f : Flags) (t : Table σ ι ν ε) (g : Nat) (hg : 0 < g) {es : List Event}
    {e : Ending (List UInt16)} (h : Talks (mergedRowsWidthHT f t g) es e) :
    ∃ n ans, (∃ w, es = (measuring t.columns.length g n (downH n.toNat g) ans).map Prod.fst ∧
        e = .returned (tableOf t.columns.length g w) ∧
        Measured (visualWidth f) t.columns.length g (downH n.toNat g) ans w) ∨
      (e = .panicked .index ∧
        Follows (measuring t.columns.length g n (downH n.toNat g) ans) es (.panicked .index)) := by
  obtain ⟨n, es', rfl, h'⟩ := talks_askLen h
  have key := part_mapM (List.range g) List.nodup_range
    (fun groupI => (List.range t.columnCount).mapM fun colI => maxCellWidthHT f n colI g groupI 0)
    _ _ (fun j _ => part_mapM (List.range t.columnCount) List.nodup_range
      (fun colI => maxCellWidthHT f n colI g j 0) _ _
      (fun c _ => part_maxH f n c g j 0))
  rcases talks_bind h' with ⟨es1, rows, es2, rfl, h1, h2⟩ | ⟨q, rfl, h1⟩ | ⟨rfl, h1⟩
  · cases h2
    obtain ⟨D, ⟨rfl, h3, h4⟩ | ⟨h3, _⟩⟩ := key _ _ h1
    · cases h3
      simp only [stepsFrom_downH _ _ _ hg] at h4 ⊢
      exact ⟨n, D, .inl ⟨_, by rw [List.append_nil]; rfl, rfl, measured_of f _ _ _ _ h4⟩⟩
    · cases h3
  · obtain ⟨D, ⟨rfl, h3, h4⟩ | ⟨h3, a, i, row, m, b, h4, rfl, h5, h6⟩⟩ := key _ _ h1
    · cases h3
    · cases h3
      simp only [stepsFrom_downH _ _ _ hg] at h4
      refine ⟨n, D, .inr ⟨rfl, ?_⟩⟩
      unfold measuring
      have h4' : ((List.range g).flatMap fun j => (List.range t.columns.length).flatMap fun c =>
        (downH n.toNat g j).map fun (k : Nat) => (Event.get k (D j c k), c + 1)) = a ++ (Event.get i row, m) :: b := h4
      rw [h4']
      exact .short ((.len n, 0) :: a) i row m b (enough_append (a := [_]) (by simpa using enough_len _ _) h5) h6
  · obtain ⟨D, ⟨rfl, h3, h4⟩ | ⟨h3, _⟩⟩ := key _ _ h1 <;> cases h3

theorem compactLoopHT_eq (f : Flags) (t : Table σ ι ν ε) (arg : Int) (sepLen g0 : Nat) (hc : 0 < t.columns.length)
    (fuel extra : Nat) (cw : List UInt16) (w : Nat → Nat → UInt16)
    {es : List Event} {e : Ending (Nat × List UInt16)}
    (h : Talks (compactLoopHT f t (maxWidthOf arg) (u16 sepLen) g0 fuel extra cw) es e) :
    (∃ ex w', e = .returned (ex, if ex = extra then cw else tableOf t.columns.length (g0 + ex) w') ∧
      (ex = extra ∧ w' = w ∨ extra < ex) ∧
      Searches (visualWidth f) t.columns.length sepLen (clamped arg) verdictH downH fuel (g0 + extra) w es
        (.returned (g0 + ex, w'))) ∨
    (∃ q, e = .panicked q ∧
      Searches (visualWidth f) t.columns.length sepLen (clamped arg) verdictH downH fuel (g0 + extra) w es
        (.panicked q)) ∨
    (e = .unfinished ∧
      Searches (visualWidth f) t.columns.length sepLen (clamped arg) verdictH downH fuel (g0 + extra) w es
        .unfinished) := by
  induction fuel generalizing extra cw w es e with
  | zero =>
    cases h
    exact .inr (.inr ⟨rfl, .unfinished _ _⟩)
  | succ fuel ih =>
    rw [compactLoopHT] at h
    rcases talks_bind h with ⟨es1, cw', es2, rfl, h1, h2⟩ | ⟨q, rfl, h1⟩ | ⟨rfl, h1⟩
    · obtain ⟨n, ans, ⟨w', rfl, h3, hm⟩ | ⟨h3, _⟩⟩ := mergedRowsWidthHT_eq f t _ (by omega) h1
      swap
      · cases h3
      cases h3
      have ht := compactTotal_eq t.columns.length sepLen (g0 + extra + 1) w' hc (by omega)
      have hm' := maxWidthOf_toNat arg
      by_cases hgt : compactTotal (u16 sepLen) (UInt16.ofNat t.columnCount) (g0 + extra + 1)
          (tableOf t.columns.length (g0 + extra + 1) w') > maxWidthOf arg
      · rw [if_pos hgt] at h2
        cases h2
        refine .inl ⟨extra, w, by simp, .inl ⟨rfl, rfl⟩, ?_⟩
        rw [List.append_nil]
        refine .tooWide fuel (g0 + extra) w n ans w' rfl hm ?_
        rw [gt_iff_lt, UInt16.lt_iff_toNat_lt, hm'] at hgt
        have : (compactTotal (u16 sepLen) (UInt16.ofNat t.columnCount) (g0 + extra + 1)
          (tableOf t.columns.length (g0 + extra + 1) w')).toNat = _ := ht
        omega
      · rw [if_neg hgt] at h2
        have hfit : fullWidth t.columns.length sepLen (g0 + extra + 1) w' % 65536 ≤ clamped arg := by
          rw [gt_iff_lt, UInt16.lt_iff_toNat_lt, hm'] at hgt
          have : (compactTotal (u16 sepLen) (UInt16.ofNat t.columnCount) (g0 + extra + 1)
            (tableOf t.columns.length (g0 + extra + 1) w')).toNat = _ := ht
          omega
        have step := fun e' (hs : Searches (visualWidth f) t.columns.length sepLen (clamped arg) verdictH downH
            fuel (g0 + extra + 1) w' es2 e') =>
          Searches.fits fuel (g0 + extra) w n ans w' es2 e' (rfl : verdictH n (g0 + extra + 1) = .measures) hm hfit hs
        rcases ih (extra + 1) _ w' h2 with ⟨ex, w'', rfl, h5, h6⟩ | ⟨q, rfl, h6⟩ | ⟨rfl, h6⟩
        · refine .inl ⟨ex, w'', ?_, .inr (by omega), step _ h6⟩
          rcases h5 with ⟨rfl, rfl⟩ | h5
          · simp
            rfl
          · rw [if_neg (by omega), if_neg (by omega)]
        · exact .inr (.inl ⟨q, rfl, step _ h6⟩)
        · exact .inr (.inr ⟨rfl, step _ h6⟩)
    · obtain ⟨n, ans, ⟨w', rfl, h3, hm⟩ | ⟨h3, h4⟩⟩ := mergedRowsWidthHT_eq f t _ (by omega) h1
      · cases h3
      · cases h3
        exact .inr (.inl ⟨_, rfl, .short fuel (g0 + extra) w n ans es rfl h4⟩)
    · obtain ⟨n, ans, ⟨w', rfl, h3, hm⟩ | ⟨h3, h4⟩⟩ := mergedRowsWidthHT_eq f t _ (by omega) h1 <;> cases h3

/-! ### Column by column -/

theorem lineCountT_pos (n : Int) (g : Nat) (hn : 0 < n) (hg : 0 < g) :
    lineCountT n g = ((linesFor n.toNat g : Nat) : Int) := by
  have h := linesClaimed_eq n g hg
  rw [linesClaimed, if_pos hn] at h
  have : 0 ≤ lineCountT n g := by
    unfold lineCountT
    have := Int.tdiv_nonneg (a := n - 1) (b := (g : Int)) (by omega) (by omega)
    omega
  omega

theorem lineCountT_neg (n : Int) (g : Nat) (hn : ¬ 0 < n) : lineCountT n g = 1 - (1 - n) / (g : Int) := by
  unfold lineCountT
  rw [show n - 1 = -(1 - n) by omega, Int.neg_tdiv, Int.tdiv_eq_ediv_of_nonneg (by omega)]
  omega

theorem verdictV_cases (n : Int) (g : Nat) (hg : 0 < g) :
    (lineCountT n g = 0 ∧ verdictV n g = .crashes) ∨
    (lineCountT n g ≠ 0 ∧ (g : Int) > (n - 1).tdiv (lineCountT n g) + 1 ∧ verdictV n g = .givesUp) ∨
    (lineCountT n g ≠ 0 ∧ ¬ (g : Int) > (n - 1).tdiv (lineCountT n g) + 1 ∧ verdictV n g = .measures ∧
      (0 < n ∨ lineCountT n g < 0)) := by
  by_cases hn : 0 < n
  · have hl := linesFor_pos n.toNat g (by omega) hg
    rw [lineCountT_pos n g hn hg]
    have hx : (n - 1).tdiv ((linesFor n.toNat g : Nat) : Int) = (((n.toNat - 1) / linesFor n.toNat g : Nat) : Int) := by
      rw [Int.tdiv_eq_ediv_of_nonneg (by omega), show n - 1 = ((n.toNat - 1 : Nat) : Int) by omega, ← Int.natCast_ediv]
    have hy : (n.toNat - 1) / linesFor n.toNat g < g - 1 ↔ n.toNat - 1 < (g - 1) * linesFor n.toNat g :=
      Nat.div_lt_iff_lt_mul hl
    rw [hx]
    right
    unfold verdictV
    rw [if_pos hn]
    by_cases hu : (g - 1) * linesFor n.toNat g < n.toNat
    · rw [if_pos hu]
      exact .inr ⟨by omega, by omega, rfl, .inl hn⟩
    · rw [if_neg hu]
      exact .inl ⟨by omega, by omega, rfl⟩
  · rw [lineCountT_neg n g hn]
    generalize hq : (1 - n) / (g : Int) = q
    have h1 : (g : Int) * q ≤ 1 - n := by rw [← hq]; exact Int.mul_ediv_self_le (by omega)
    have h2 : 1 - n < (g : Int) * (q + 1) := by
      rw [← hq, Int.mul_add, Int.mul_one]; exact Int.lt_mul_ediv_self_add (by omega)
    have h0 : 0 ≤ q := by rw [← hq]; exact Int.ediv_nonneg (by omega) (by omega)
    unfold verdictV
    rw [if_neg hn]
    by_cases hq0 : q = 0
    · subst hq0
      right; left
      rw [if_pos (by omega)]
      refine ⟨by omega, ?_, rfl⟩
      rw [show (1 : Int) - 0 = 1 by rfl, Int.tdiv_one]
      omega
    · by_cases hq1 : q = 1
      · subst hq1
        left
        rw [if_neg (by omega), if_pos (by omega)]
        exact ⟨by omega, rfl⟩
      · have h3 : (g : Int) * 2 ≤ g * q := Int.mul_le_mul_of_nonneg_left (by omega) (by omega)
        right; right
        rw [if_neg (by omega), if_neg (by omega)]
        refine ⟨by omega, ?_, rfl, .inr (by omega)⟩
        rw [show n - 1 = -(1 - n) by omega, show 1 - q = -(q - 1) by omega, Int.neg_tdiv, Int.tdiv_neg,
          Int.neg_neg, Int.tdiv_eq_ediv_of_nonneg (by omega)]
        have : (g : Int) ≤ (1 - n) / (q - 1) := by
          rw [Int.le_ediv_iff_mul_le (by omega)]
          rw [Int.mul_sub, Int.mul_one]
          omega
        omega

theorem stepsV (n : Int) (g j : Nat) (hg : 0 < g) (h : 0 < n ∨ lineCountT n g < 0) :
    ((j : Int) * lineCountT n g < (if ((j : Int) + 1) * lineCountT n g > n then n
        else ((j : Int) + 1) * lineCountT n g) → 0 ≤ (j : Int) * lineCountT n g) ∧
    stepsFrom (if ((j : Int) + 1) * lineCountT n g > n then n else ((j : Int) + 1) * lineCountT n g).toNat 1
      ((j : Int) * lineCountT n g).toNat = downV n.toNat g j := by
  by_cases hn : 0 < n
  · rw [lineCountT_pos n g hn hg]
    generalize hl : linesFor n.toNat g = l
    have h1 : ((j : Int) * (l : Int)).toNat = j * l := by
      rw [← Int.natCast_mul]; rfl
    have h2 : (if ((j : Int) + 1) * (l : Int) > n then n else ((j : Int) + 1) * (l : Int)).toNat =
        min ((j + 1) * l) n.toNat := by
      have : ((j : Int) + 1) * (l : Int) = (((j + 1) * l : Nat) : Int) := by
        rw [Int.natCast_mul]; rfl
      rw [this]
      split <;> omega
    rw [h1, h2]
    refine ⟨fun _ => Int.mul_nonneg (by omega) (by omega), ?_⟩
    have := stepsFrom_downV n.toNat g j
    rwa [hl] at this
  · have hL : lineCountT n g < 0 := by omega
    have hs : ((j : Int) + 1) * lineCountT n g = (j : Int) * lineCountT n g + lineCountT n g := by
      rw [Int.add_mul, Int.one_mul]
    constructor
    · intro hlt
      exfalso
      split at hlt <;> omega
    · have : (if ((j : Int) + 1) * lineCountT n g > n then n else ((j : Int) + 1) * lineCountT n g).toNat = 0 := by
        split <;> omega
      rw [this, stepsFrom, if_neg (by omega), downV]
      symm
      rw [List.filter_eq_nil_iff]
      intro a _
      simp only [decide_eq_true_eq]
      omega

theorem mergedRowsWidthVT_eq (f : Flags) (t : Table σ ι ν ε) (g : Nat) (hg : 0 < g) {es : List Event}
    {e : Ending (Option (List UInt16))} (h : Talks (mergedRowsWidthVT f t g) es e) :
    ∃ n, (verdictV n g = .crashes ∧ es = [.len n] ∧ e = .panicked .divideByZero) ∨
      (verdictV n g = .givesUp ∧ es = [.len n] ∧ e = .returned none) ∨
      (verdictV n g = .measures ∧ ∃ ans,
        (∃ w, es = (measuring t.columns.length g n (downV n.toNat g) ans).map Prod.fst ∧
          e = .returned (some (tableOf t.columns.length g w)) ∧
          Measured (visualWidth f) t.columns.length g (downV n.toNat g) ans w) ∨
        (e = .panicked .index ∧
          Follows (measuring t.columns.length g n (downV n.toNat g) ans) es (.panicked .index))) := by
  obtain ⟨n, es', rfl, h'⟩ := talks_askLen h
  refine ⟨n, ?_⟩
  rcases verdictV_cases n g hg with ⟨h1, h2⟩ | ⟨h1, h2, h3⟩ | ⟨h1, h2, h3, h4⟩
  · simp only [h1, if_true] at h'
    cases h'
    exact .inl ⟨h2, rfl, rfl⟩
  · simp only [h1, if_false, h2, if_true] at h'
    cases h'
    exact .inr (.inl ⟨h3, rfl, rfl⟩)
  · simp only [h1, if_false, h2] at h'
    refine .inr (.inr ⟨h3, ?_⟩)
    have key := part_mapM (List.range g) List.nodup_range
      (fun (groupI : Nat) => (List.range t.columnCount).mapM fun colI => maxCellWidthVT f colI
        (if ((groupI : Int) + 1) * lineCountT n g > n then n else ((groupI : Int) + 1) * lineCountT n g)
        (groupI * lineCountT n g) 0)
      _ _ (fun j _ => part_mapM (List.range t.columnCount) List.nodup_range
        (fun colI => maxCellWidthVT f colI
          (if ((j : Int) + 1) * lineCountT n g > n then n else ((j : Int) + 1) * lineCountT n g)
          (j * lineCountT n g) 0) _ _
        (fun c _ => part_maxV f c _ _ 0 (stepsV n g j hg h4).1))
    have hst := fun j => (stepsV n g j hg h4).2
    rcases talks_bind h' with ⟨es1, rows, es2, rfl, h1, h2⟩ | ⟨q, rfl, h1⟩ | ⟨rfl, h1⟩
    · cases h2
      obtain ⟨D, ⟨rfl, h3, h4⟩ | ⟨h3, _⟩⟩ := key _ _ h1
      · cases h3
        simp only [hst] at h4 ⊢
        exact ⟨D, .inl ⟨_, by rw [List.append_nil]; rfl, rfl, measured_of f _ _ _ _ h4⟩⟩
      · cases h3
    · obtain ⟨D, ⟨rfl, h3, h4⟩ | ⟨h3, a, i, row, m, b, h4, rfl, h5, h6⟩⟩ := key _ _ h1
      · cases h3
      · cases h3
        simp only [hst] at h4
        refine ⟨D, .inr ⟨rfl, ?_⟩⟩
        unfold measuring
        have h4' : ((List.range g).flatMap fun j => (List.range t.columns.length).flatMap fun c =>
          (downV n.toNat g j).map fun (k : Nat) => (Event.get k (D j c k), c + 1)) = a ++ (Event.get i row, m) :: b := h4
        rw [h4']
        exact .short ((.len n, 0) :: a) i row m b (enough_append (a := [_]) (by simpa using enough_len _ _) h5) h6
    · obtain ⟨D, ⟨rfl, h3, h4⟩ | ⟨h3, _⟩⟩ := key _ _ h1 <;> cases h3

theorem compactLoopVT_eq (f : Flags) (t : Table σ ι ν ε) (arg : Int) (sepLen g0 : Nat) (hc : 0 < t.columns.length)
    (fuel extra : Nat) (cw : List UInt16) (w : Nat → Nat → UInt16)
    {es : List Event} {e : Ending (Nat × List UInt16)}
    (h : Talks (compactLoopVT f t (maxWidthOf arg) (u16 sepLen) g0 fuel extra cw) es e) :
    (∃ ex w', e = .returned (ex, if ex = extra then cw else tableOf t.columns.length (g0 + ex) w') ∧
      (ex = extra ∧ w' = w ∨ extra < ex) ∧
      Searches (visualWidth f) t.columns.length sepLen (clamped arg) verdictV downV fuel (g0 + extra) w es
        (.returned (g0 + ex, w'))) ∨
    (∃ q, e = .panicked q ∧
      Searches (visualWidth f) t.columns.length sepLen (clamped arg) verdictV downV fuel (g0 + extra) w es
        (.panicked q)) ∨
    (e = .unfinished ∧
      Searches (visualWidth f) t.columns.length sepLen (clamped arg) verdictV downV fuel (g0 + extra) w es
        .unfinished) := by
  induction fuel generalizing extra cw w es e with
  | zero =>
    cases h
    exact .inr (.inr ⟨rfl, .unfinished _ _⟩)
  | succ fuel ih =>
    rw [compactLoopVT] at h
    rcases talks_bind h with ⟨es1, cw', es2, rfl, h1, h2⟩ | ⟨q, rfl, h1⟩ | ⟨rfl, h1⟩
    · obtain ⟨n, ⟨_, _, h3⟩ | ⟨hv, rfl, h3⟩ | ⟨hv, ans, ⟨w', rfl, h3, hm⟩ | ⟨h3, _⟩⟩⟩ :=
        mergedRowsWidthVT_eq f t _ (by omega) h1
      · cases h3
      · cases h3
        cases h2
        exact .inl ⟨extra, w, by simp, .inl ⟨rfl, rfl⟩, .givesUp fuel (g0 + extra) w n hv⟩
      swap
      · cases h3
      cases h3
      simp only [] at h2
      have ht := compactTotal_eq t.columns.length sepLen (g0 + extra + 1) w' hc (by omega)
      have hm' := maxWidthOf_toNat arg
      by_cases hgt : compactTotal (u16 sepLen) (UInt16.ofNat t.columnCount) (g0 + extra + 1)
          (tableOf t.columns.length (g0 + extra + 1) w') > maxWidthOf arg
      · rw [if_pos hgt] at h2
        cases h2
        refine .inl ⟨extra, w, by simp, .inl ⟨rfl, rfl⟩, ?_⟩
        rw [List.append_nil]
        refine .tooWide fuel (g0 + extra) w n ans w' hv hm ?_
        rw [gt_iff_lt, UInt16.lt_iff_toNat_lt, hm'] at hgt
        have : (compactTotal (u16 sepLen) (UInt16.ofNat t.columnCount) (g0 + extra + 1)
          (tableOf t.columns.length (g0 + extra + 1) w')).toNat = _ := ht
        omega
      · rw [if_neg hgt] at h2
        have hfit : fullWidth t.columns.length sepLen (g0 + extra + 1) w' % 65536 ≤ clamped arg := by
          rw [gt_iff_lt, UInt16.lt_iff_toNat_lt, hm'] at hgt
          have : (compactTotal (u16 sepLen) (UInt16.ofNat t.columnCount) (g0 + extra + 1)
            (tableOf t.columns.length (g0 + extra + 1) w')).toNat = _ := ht
          omega
        have step := fun e' (hs : Searches (visualWidth f) t.columns.length sepLen (clamped arg) verdictV downV
            fuel (g0 + extra + 1) w' es2 e') =>
          Searches.fits fuel (g0 + extra) w n ans w' es2 e' hv hm hfit hs
        rcases ih (extra + 1) _ w' h2 with ⟨ex, w'', rfl, h5, h6⟩ | ⟨q, rfl, h6⟩ | ⟨rfl, h6⟩
        · refine .inl ⟨ex, w'', ?_, .inr (by omega), step _ h6⟩
          rcases h5 with ⟨rfl, rfl⟩ | h5
          · simp
            rfl
          · rw [if_neg (by omega), if_neg (by omega)]
        · exact .inr (.inl ⟨q, rfl, step _ h6⟩)
        · exact .inr (.inr ⟨rfl, step _ h6⟩)
    · obtain ⟨n, ⟨hv, rfl, h3⟩ | ⟨hv, rfl, h3⟩ | ⟨hv, ans, ⟨w', rfl, h3, hm⟩ | ⟨h3, h4⟩⟩⟩ :=
        mergedRowsWidthVT_eq f t _ (by omega) h1
      · cases h3
        exact .inr (.inl ⟨_, rfl, .crashes fuel (g0 + extra) w n hv⟩)
      · cases h3
      · cases h3
      · cases h3
        exact .inr (.inl ⟨_, rfl, .short fuel (g0 + extra) w n ans es hv h4⟩)
    · obtain ⟨n, ⟨hv, rfl, h3⟩ | ⟨hv, rfl, h3⟩ | ⟨hv, ans, ⟨w', rfl, h3, hm⟩ | ⟨h3, h4⟩⟩⟩ :=
        mergedRowsWidthVT_eq f t _ (by omega) h1 <;> cases h3

/-! ## Whole merges -/

theorem talks_ok {p : Except Panic α} {x : α} (hp : p = .ok x) {g : α → Talk β} {es : List Event} {e : Ending β}
    (h : Talks (Talk.ofExcept p >>= g) es e) : Talks (g x) es e := by
  subst hp; exact h

theorem mergeHT_plain (f : Flags) (t : Table σ ι ν ε) (arg : Int) (sep : GoString) (fuel : Nat)
    (hp : pitch t sep.length % 65536 ≠ 0) {es : List Event} {e : Ending Unit}
    (h : Talks (mergeRowsHorizontalT f t arg sep false fuel) es e) :
    ∃ n rows, Follows (script f t.columns (recorded t) sep
      (plainGroups (clamped arg) sep.length (pitch t sep.length)) n rows
      (onLineH n.toNat (plainGroups (clamped arg) sep.length (pitch t sep.length)))) es e := by
  unfold mergeRowsHorizontalT at h
  have h := talks_ok (initialGroupCount_ok t arg sep.length hp) h
  exact printHT_follows f t sep _ (plainGroups_pos _ _ _) _ _ (fun c j hc _ => getWidthTable_ok t c j hc) h

theorem mergeVT_plain (f : Flags) (t : Table σ ι ν ε) (arg : Int) (sep : GoString) (fuel : Nat)
    (hp : pitch t sep.length % 65536 ≠ 0) {es : List Event} {e : Ending Unit}
    (h : Talks (mergeRowsVerticalT f t arg sep false fuel) es e) :
    ∃ n rows, Follows (script f t.columns (recorded t) sep
      (plainGroups (clamped arg) sep.length (pitch t sep.length)) n rows
      (onLineV n.toNat (plainGroups (clamped arg) sep.length (pitch t sep.length))
        (linesFor n.toNat (plainGroups (clamped arg) sep.length (pitch t sep.length))))) es e := by
  unfold mergeRowsVerticalT at h
  have h := talks_ok (initialGroupCount_ok t arg sep.length hp) h
  exact printVT_follows f t sep _ (plainGroups_pos _ _ _) _ _ (fun c j hc _ => getWidthTable_ok t c j hc) h

theorem mergeHT_compact (f : Flags) (t : Table σ ι ν ε) (arg : Int) (sep : GoString) (fuel : Nat)
    (hp : pitch t sep.length % 65536 ≠ 0) {es : List Event} {e : Ending Unit}
    (h : Talks (mergeRowsHorizontalT f t arg sep true fuel) es e) :
    Conversation f t sep onLineH (Searches (visualWidth f) t.columns.length sep.length (clamped arg) verdictH downH
      fuel (plainGroups (clamped arg) sep.length (pitch t sep.length)) (recorded t)) es e := by
  unfold mergeRowsHorizontalT at h
  have h := talks_ok (initialGroupCount_ok t arg sep.length hp) h
  simp only [if_true] at h
  have hpos := plainGroups_pos (clamped arg) sep.length (pitch t sep.length)
  generalize plainGroups (clamped arg) sep.length (pitch t sep.length) = g0 at h hpos
  have hc := columns_of_pitch hp
  rcases talks_bind h with ⟨es1, a, es2, rfl, h1, h2⟩ | ⟨q, rfl, h1⟩ | ⟨rfl, h1⟩
  · rcases compactLoopHT_eq f t arg sep.length g0 hc fuel 0 [] (recorded t) h1 with
      ⟨ex, w, h3, h4, h5⟩ | ⟨q, h3, _⟩ | ⟨h3, _⟩
    · cases h3
      by_cases he : ex = 0
      · subst he
        obtain ⟨_, rfl⟩ : True ∧ w = recorded t := by
          rcases h4 with ⟨_, h4⟩ | h4
          · exact ⟨trivial, h4⟩
          · omega
        simp only [gt_iff_lt, Nat.lt_irrefl, if_false] at h2
        obtain ⟨n, rows, h6⟩ := printHT_follows f t sep g0 hpos _ _ (fun c j hc _ => getWidthTable_ok t c j hc) h2
        exact .prints es1 es2 e g0 _ n rows h5 h6
      · rw [if_neg he] at h2
        simp only [gt_iff_lt] at h2
        rw [if_pos (by omega)] at h2
        obtain ⟨n, rows, h6⟩ := printHT_follows f t sep (g0 + ex) (by omega) _ w
          (fun c j hc hj => getWidthCompact_ok w t.columns.length (g0 + ex) c j hc hj) h2
        exact .prints es1 es2 e (g0 + ex) _ n rows h5 h6
    · cases h3
    · cases h3
  · rcases compactLoopHT_eq f t arg sep.length g0 hc fuel 0 [] (recorded t) h1 with
      ⟨ex, w, h3, h4, h5⟩ | ⟨q, h3, h5⟩ | ⟨h3, _⟩
    · cases h3
    · cases h3; exact .panics _ _ h5
    · cases h3
  · rcases compactLoopHT_eq f t arg sep.length g0 hc fuel 0 [] (recorded t) h1 with
      ⟨ex, w, h3, h4, h5⟩ | ⟨q, h3, h5⟩ | ⟨_, h5⟩
    · cases h3
    · cases h3
    · exact .unfinished _ h5

theorem mergeVT_compact (f : Flags) (t : Table σ ι ν ε) (arg : Int) (sep : GoString) (fuel : Nat)
    (hp : pitch t sep.length % 65536 ≠ 0) {es : List Event} {e : Ending Unit}
    (h : Talks (mergeRowsVerticalT f t arg sep true fuel) es e) :
    Conversation f t sep (fun n g => onLineV n g (linesFor n g))
      (Searches (visualWidth f) t.columns.length sep.length (clamped arg) verdictV downV
        fuel (plainGroups (clamped arg) sep.length (pitch t sep.length)) (recorded t)) es e := by
  unfold mergeRowsVerticalT at h
  have h := talks_ok (initialGroupCount_ok t arg sep.length hp) h
  simp only [if_true] at h
  have hpos := plainGroups_pos (clamped arg) sep.length (pitch t sep.length)
  generalize plainGroups (clamped arg) sep.length (pitch t sep.length) = g0 at h hpos
  have hc := columns_of_pitch hp
  rcases talks_bind h with ⟨es1, a, es2, rfl, h1, h2⟩ | ⟨q, rfl, h1⟩ | ⟨rfl, h1⟩
  · rcases compactLoopVT_eq f t arg sep.length g0 hc fuel 0 [] (recorded t) h1 with
      ⟨ex, w, h3, h4, h5⟩ | ⟨q, h3, _⟩ | ⟨h3, _⟩
    · cases h3
      by_cases he : ex = 0
      · subst he
        obtain ⟨_, rfl⟩ : True ∧ w = recorded t := by
          rcases h4 with ⟨_, h4⟩ | h4
          · exact ⟨trivial, h4⟩
          · omega
        simp only [gt_iff_lt, Nat.lt_irrefl, if_false] at h2
        obtain ⟨n, rows, h6⟩ := printVT_follows f t sep g0 hpos _ _ (fun c j hc _ => getWidthTable_ok t c j hc) h2
        exact .prints es1 es2 e g0 _ n rows h5 h6
      · rw [if_neg he] at h2
        simp only [gt_iff_lt] at h2
        rw [if_pos (by omega)] at h2
        obtain ⟨n, rows, h6⟩ := printVT_follows f t sep (g0 + ex) (by omega) _ w
          (fun c j hc hj => getWidthCompact_ok w t.columns.length (g0 + ex) c j hc hj) h2
        exact .prints es1 es2 e (g0 + ex) _ n rows h5 h6
    · cases h3
    · cases h3
  · rcases compactLoopVT_eq f t arg sep.length g0 hc fuel 0 [] (recorded t) h1 with
      ⟨ex, w, h3, h4, h5⟩ | ⟨q, h3, h5⟩ | ⟨h3, _⟩
    · cases h3
    · cases h3; exact .panics _ _ h5
    · cases h3
  · rcases compactLoopVT_eq f t arg sep.length g0 hc fuel 0 [] (recorded t) h1 with
      ⟨ex, w, h3, h4, h5⟩ | ⟨q, h3, h5⟩ | ⟨_, h5⟩
    · cases h3
    · cases h3
    · exact .unfinished _ h5

/-! ## In range -/

theorem inRange_append {n : Int} {a b : List Event}
    (ha : ∀ ev ∈ a, (∃ i row, ev = .get i row ∧ 0 ≤ i ∧ i < n) ∨ ∃ s x, ev = .write s x)
    (hb : InRange n b) : InRange n (a ++ b) := by
  induction a with
  | nil => exact hb
  | cons x a ih =>
    have ih := ih fun ev h => ha ev (by simp [h])
    rcases ha x (by simp) with ⟨i, row, rfl, h0, h1⟩ | ⟨s, y, rfl⟩
    · exact ⟨⟨h0, h1⟩, ih⟩
    · exact ih

theorem follows_prefix {s : List (Event × Nat)} {es : List Event} {e : Ending Unit} (h : Follows s es e) :
    ∀ ev ∈ es, ev ∈ s.map Prod.fst ∨ ∃ t, ev = .write t true := by
  cases h with
  | all => intro ev h; exact .inl h
  | write b text c =>
    intro ev h
    rcases List.mem_append.mp h with h | h
    · exact .inl (by rw [List.map_append]; exact List.mem_append_left _ h)
    · exact .inr ⟨text, by simpa using h⟩
  | short b i row m c h =>
    intro ev h
    rcases List.mem_append.mp h with h | h
    · exact .inl (by rw [List.map_append]; exact List.mem_append_left _ h)
    · exact .inl (by simp at h; simp [h])

theorem follows_head {n : Int} {m : Nat} {s : List (Event × Nat)} {es : List Event} {e : Ending Unit}
    (h : Follows ((.len n, m) :: s) es e) : ∃ es', es = .len n :: es' ∧ Follows s es' e := by
  generalize hs : (Event.len n, m) :: s = s' at h
  cases h with
  | all _ h => subst hs; exact ⟨_, rfl, .all s fun call hc => h call (by simp [hc])⟩
  | write b text c h =>
    cases b with
    | nil => cases hs
    | cons x b => cases hs; exact ⟨_, rfl, .write b text c fun call hc => h call (by simp [hc])⟩
  | short b i row m c h hs' =>
    cases b with
    | nil => cases hs
    | cons x b => cases hs; exact ⟨_, rfl, .short b i row m c (fun call hc => h call (by simp [hc])) hs'⟩

/-- Following a script that asks for the length once and is in range. -/
theorem inRange_follows {n m : Int} {k : Nat} {s : List (Event × Nat)} {es : List Event} {e : Ending Unit}
    (h : Follows ((.len n, k) :: s) es e)
    (hs : ∀ ev ∈ s.map Prod.fst, (∃ i row, ev = .get i row ∧ 0 ≤ i ∧ i < n) ∨ ∃ s x, ev = .write s x) :
    InRange m es := by
  obtain ⟨es', rfl, h'⟩ := follows_head h
  show InRange n es'
  rw [← List.append_nil es']
  refine inRange_append (fun ev hev => ?_) trivial
  rcases follows_prefix h' ev hev with h | ⟨t, rfl⟩
  · exact hs ev h
  · exact .inr ⟨t, true, rfl⟩

theorem mem_script (f : Flags) (cols : List (Column σ ι ν ε)) (w : Nat → Nat → UInt16) (sep : GoString) (g : Nat)
    (n : Int) (rows : Nat → List GoString) (onLine : Nat → List Nat) (h : ∀ i, ∀ k ∈ onLine i, k < n.toNat) :
    ∀ ev ∈ ((List.range (linesClaimed n g)).flatMap fun i =>
      ((onLine i).map fun (k : Nat) => (Event.get k (rows k), cols.length)) ++
        [(.write (lineText f cols w sep rows g (onLine i) ++ [0x0A]) false, 0)]).map Prod.fst,
    (∃ i row, ev = .get i row ∧ 0 ≤ i ∧ i < n) ∨ ∃ s x, ev = .write s x := by
  intro ev hev'
  obtain ⟨call, hev, rfl⟩ := List.mem_map.mp hev'
  obtain ⟨i, _, hev⟩ := List.mem_flatMap.mp hev
  rcases List.mem_append.mp hev with hev | hev
  · obtain ⟨k, hk, rfl⟩ := List.mem_map.mp hev
    have := h i k hk
    exact .inl ⟨k, _, rfl, by omega, by omega⟩
  · rw [List.mem_singleton] at hev
    exact .inr ⟨_, _, by rw [hev]⟩

theorem mem_measuring (cols g : Nat) (n : Int) (down : Nat → List Nat) (ans : Nat → Nat → Nat → List GoString)
    (h : ∀ i, ∀ k ∈ down i, k < n.toNat) :
    ∀ ev ∈ ((List.range g).flatMap fun j => (List.range cols).flatMap fun c =>
      (down j).map fun (k : Nat) => (Event.get k (ans j c k), c + 1)).map Prod.fst,
    (∃ i row, ev = .get i row ∧ 0 ≤ i ∧ i < n) ∨ ∃ s x, ev = .write s x := by
  intro ev hev'
  obtain ⟨call, hev, rfl⟩ := List.mem_map.mp hev'
  obtain ⟨j, _, hev⟩ := List.mem_flatMap.mp hev
  obtain ⟨c, _, hev⟩ := List.mem_flatMap.mp hev
  obtain ⟨k, hk, rfl⟩ := List.mem_map.mp hev
  have := h j k hk
  exact .inl ⟨k, _, rfl, by omega, by omega⟩

theorem inRange_searches {vw : GoString → UInt16} {cols sepLen maxWidth : Nat} {verdict : Int → Nat → Verdict}
    {down : Nat → Nat → Nat → List Nat} (hd : ∀ n g j, ∀ k ∈ down n g j, k < n) {fuel g : Nat}
    {w : Nat → Nat → UInt16} {es : List Event} {e : Ending (Nat × (Nat → Nat → UInt16))}
    (h : Searches vw cols sepLen maxWidth verdict down fuel g w es e) (b : List Event) (hb : ∀ m, InRange m b)
    (m : Int) : InRange m (es ++ b) := by
  induction h generalizing m with
  | unfinished => exact hb m
  | givesUp => exact hb _
  | crashes => exact hb _
  | short fuel g w n ans es hv hs =>
    obtain ⟨es', rfl, h'⟩ := follows_head hs
    refine inRange_append (n := n) (a := es') (fun ev hev => ?_) (hb n)
    rcases follows_prefix h' ev hev with h | ⟨t, rfl⟩
    · exact mem_measuring _ _ _ _ _ (hd n.toNat (g + 1)) ev h
    · exact .inr ⟨t, true, rfl⟩
  | tooWide fuel g w n ans w' hv hm hw => exact inRange_append (n := n) (mem_measuring _ _ _ _ _ (hd n.toNat (g + 1))) (hb n)
  | fits fuel g w n ans w' es e hv hm hw h ih =>
    rw [List.append_assoc]
    exact inRange_append (n := n) (mem_measuring _ _ _ _ _ (hd n.toNat (g + 1))) (ih n)

theorem inRange_conversation {f : Flags} {t : Table σ ι ν ε} {sep : GoString} {onLine : Nat → Nat → Nat → List Nat}
    (hl : ∀ n g i, ∀ k ∈ onLine n g i, k < n)
    {search : List Event → Ending (Nat × (Nat → Nat → UInt16)) → Prop}
    (hsearch : ∀ s e, search s e → ∀ b, (∀ m, InRange m b) → ∀ m, InRange m (s ++ b))
    {es : List Event} {e : Ending Unit} (h : Conversation f t sep onLine search es e) (m : Int) : InRange m es := by
  cases h with
  | prints s es e g w n rows hs h =>
    exact hsearch s _ hs es (fun m => inRange_follows h (mem_script _ _ _ _ _ _ _ _ (hl n.toNat g))) m
  | panics s p hs => simpa using hsearch _ _ hs [] (fun _ => trivial) m
  | unfinished s hs => simpa using hsearch _ _ hs [] (fun _ => trivial) m

theorem mem_onLineH (n g i k : Nat) (h : k ∈ onLineH n g i) : k < n := by
  simpa using (List.mem_filter.mp h).2
theorem mem_onLineV (n g l i k : Nat) (h : k ∈ onLineV n g l i) : k < n := by
  simpa using (List.mem_filter.mp h).2
theorem mem_downH (n g j k : Nat) (h : k ∈ downH n g j) : k < n := by
  simpa using (List.mem_filter.mp h).2
theorem mem_downV (n g j k : Nat) (h : k ∈ downV n g j) : k < n := by
  simpa using (List.mem_filter.mp h).2

theorem mergeT_zero (f : Flags) (t : Table σ ι ν ε) (arg : Int) (sep : GoString) (compact : Bool) (fuel : Nat)
    (hp : pitch t sep.length % 65536 = 0) {es : List Event} {e : Ending Unit}
    (h : Talks (mergeRowsHorizontalT f t arg sep compact fuel) es e ∨
      Talks (mergeRowsVerticalT f t arg sep compact fuel) es e) : es = [] ∧ e = .panicked .divideByZero := by
  have hz := initialGroupCount_zero t arg sep.length hp
  unfold mergeRowsHorizontalT mergeRowsVerticalT at h
  simp only [hz] at h
  rcases h with h | h <;> cases h <;> exact ⟨rfl, rfl⟩

/-! ## With a fixed list -/

/-- The outcome with a fixed list and a writer that has been called `k` times. -/
def runWith (items : Items) (fails : Nat → Bool) : Nat → Talk α → List GoString × Ending α
  | _, .ret a => ([], .returned a)
  | _, .panic p => ([], .panicked p)
  | _, .unfinished => ([], .unfinished)
  | k, .len g => runWith items fails k (g items.len)
  | k, .get i g => runWith items fails k (g (items.get i))
  | k, .write s g => (s :: (runWith items fails (k + 1) (g (fails k))).1, (runWith items fails (k + 1) (g (fails k))).2)

theorem runWith_talks {items : Items} {fails : Nat → Bool} {p : Talk α} {es : List Event} {e : Ending α}
    (h : Talks p es e) (hl : ∀ n, Event.len n ∈ es → n = items.len)
    (hg : ∀ i row, Event.get i row ∈ es → row = items.get i) (k : Nat)
    (hw : ∀ j failed, (failures es)[j]? = some failed → failed = fails (k + j)) :
    runWith items fails k p = (written es, e) := by
  induction h generalizing k with
  | ret => rfl
  | panic => rfl
  | unfinished => rfl
  | len n h ih =>
    have := hl n (by simp)
    subst this
    simp only [runWith, written]
    exact ih (fun n hn => hl n (by simp [hn])) (fun i row hr => hg i row (by simp [hr])) k hw
  | get i row h ih =>
    have := hg i row (by simp)
    subst this
    simp only [runWith, written]
    exact ih (fun n hn => hl n (by simp [hn])) (fun i row hr => hg i row (by simp [hr])) k hw
  | write s b h ih =>
    have hb : b = fails k := hw 0 b rfl
    subst hb
    simp only [runWith, written]
    rw [ih (fun n hn => hl n (by simp [hn])) (fun i row hr => hg i row (by simp [hr])) (k + 1) (fun j failed hj => by
      have := hw (j + 1) failed (by simpa [failures] using hj)
      rwa [show k + 1 + j = k + (j + 1) by omega])]

/-- The outcome of a computation followed by another. -/
theorem runWith_bind (items : Items) (fails : Nat → Bool) (k : Nat) (p : Talk α) (g : α → Talk β) :
    runWith items fails k (p >>= g) = match runWith items fails k p with
      | (ws, .returned a) => (ws ++ (runWith items fails (k + ws.length) (g a)).1,
          (runWith items fails (k + ws.length) (g a)).2)
      | (ws, .panicked q) => (ws, .panicked q)
      | (ws, .unfinished) => (ws, .unfinished) := by
  rw [talk_bind_eq]
  induction p generalizing k with
  | ret a => rfl
  | panic p => rfl
  | unfinished => rfl
  | len h ih => exact ih _ k
  | get i h ih => exact ih _ k
  | write s h ih =>
    simp only [Talk.bind, runWith, ih]
    rcases hx : runWith items fails (k + 1) (h (fails k)) with ⟨ws, a | q | _⟩
    · simp only [List.cons_append, List.length_cons]
      rw [show k + 1 + ws.length = k + (ws.length + 1) by omega]
    · rfl
    · rfl

def endOf : Except Panic α → Ending α
  | .ok a => .returned a
  | .error p => .panicked p

/-- With the fixed list, `p` writes nothing and comes out as `x`. -/
def Same (items : Items) (p : Talk α) (x : Except Panic α) : Prop :=
  ∀ fails k, runWith items fails k p = ([], endOf x)

theorem same_ret (items : Items) (a : α) : Same items (.ret a) (.ok a) := fun _ _ => rfl

theorem same_ofExcept (items : Items) (x : Except Panic α) : Same items (Talk.ofExcept x) x := by
  intro fails k
  cases x <;> rfl

theorem same_bind {items : Items} {p : Talk α} {x : Except Panic α} {g : α → Talk β} {y : α → Except Panic β}
    (hp : Same items p x) (hg : ∀ a, Same items (g a) (y a)) : Same items (p >>= g) (x >>= y) := by
  intro fails k
  rw [runWith_bind, hp fails k]
  cases x with
  | error q => rfl
  | ok a =>
    simp only [endOf, List.nil_append, List.length_nil, Nat.add_zero]
    rw [hg a fails k]
    rfl

theorem same_mapM {γ : Type} {items : Items} (l : List γ) (p : γ → Talk α) (x : γ → Except Panic α)
    (h : ∀ a ∈ l, Same items (p a) (x a)) : Same items (l.mapM p) (l.mapM x) := by
  induction l with
  | nil => rw [List.mapM_nil, List.mapM_nil]; exact same_ret _ _
  | cons a l ih =>
    rw [List.mapM_cons, List.mapM_cons]
    exact same_bind (h a (by simp)) fun _ => same_bind (ih fun b hb => h b (by simp [hb])) fun _ => same_ret _ _

theorem same_get {items : Items} {i : Int} {g : List GoString → Talk β} {x : Except Panic β}
    (h : Same items (g (items.get i)) x) : Same items (askGet i >>= g) x := fun fails k => h fails k

theorem same_len {items : Items} {g : Int → Talk β} {x : Except Panic β}
    (h : Same items (g items.len) x) : Same items (askLen >>= g) x := fun fails k => h fails k

theorem same_maxH (f : Flags) (items : Items) (c g k : Nat) (mw : UInt16) :
    Same items (maxCellWidthHT f items.len c g k mw) (maxCellWidthH f items c g k mw) := by
  fun_induction maxCellWidthH f items c g k mw with
  | case1 k mw h p hp =>
    rw [maxCellWidthHT, dif_pos (by omega)]
    refine same_get ?_
    rw [hp]
    exact fun _ _ => rfl
  | case2 k mw h s hs w ih =>
    rw [maxCellWidthHT, dif_pos (by omega)]
    refine same_get ?_
    rw [hs]
    exact ih
  | case3 k mw h =>
    rw [maxCellWidthHT, dif_neg (by omega)]
    exact same_ret _ _

theorem same_maxV (f : Flags) (items : Items) (c stop k : Nat) (mw : UInt16) :
    Same items (maxCellWidthVT f c stop k mw) (maxCellWidthV f items c stop k mw) := by
  fun_induction maxCellWidthV f items c stop k mw with
  | case1 k mw h p hp =>
    rw [maxCellWidthVT, if_pos (by omega)]
    refine same_get ?_
    rw [hp]
    exact fun _ _ => rfl
  | case2 k mw h s hs w ih =>
    rw [maxCellWidthVT, if_pos (by omega)]
    refine same_get ?_
    rw [hs]
    exact ih
  | case3 k mw h =>
    rw [maxCellWidthVT, if_neg (by omega)]
    exact same_ret _ _

theorem same_widthH (f : Flags) (t : Table σ ι ν ε) (items : Items) (g : Nat) :
    Same items (mergedRowsWidthHT f t g) (mergedRowsWidthH f t items g) := by
  refine same_len ?_
  exact same_bind (same_mapM _ _ _ fun j _ => same_mapM _ _ _ fun c _ => same_maxH f items c g j 0)
    fun _ => same_ret _ _

theorem same_widthV (f : Flags) (t : Table σ ι ν ε) (items : Items) (g : Nat) (hg : 0 < g) :
    Same items (mergedRowsWidthVT f t g) (mergedRowsWidthV f t items g) := by
  refine same_len ?_
  unfold mergedRowsWidthV
  have hL : lineCountT items.len g = lineCountOf items.len g := rfl
  simp only [hL]
  by_cases h0 : lineCountOf items.len g = 0
  · rw [if_pos h0, if_pos h0]
    exact fun _ _ => rfl
  · rw [if_neg h0, if_neg h0]
    by_cases h1 : (g : Int) > ((items.len : Int) - 1).tdiv (lineCountOf items.len g) + 1
    · rw [if_pos h1, if_pos h1]
      exact same_ret _ _
    · rw [if_neg h1, if_neg h1]
      have hpos : 0 < lineCountOf items.len g := by
        by_cases hn : 0 < items.len
        · have := linesFor_pos items.len g hn hg
          rw [← lineCountOf_eq items.len g hn hg] at this
          omega
        · rw [show items.len = 0 by omega] at h0 ⊢
          have h2 : lineCountOf 0 g = lineCountT ((0 : Nat) : Int) g := rfl
          rw [h2, lineCountT_neg _ _ (by omega)] at h0 ⊢
          have : ((1 : Int) - ((0 : Nat) : Int)) / (g : Int) ≤ 1 := by
            have := Int.ediv_le_self (a := 1 - ((0 : Nat) : Int)) (g : Int) (by omega)
            omega
          omega
      obtain ⟨l, hl⟩ : ∃ l : Nat, lineCountOf items.len g = l := ⟨(lineCountOf items.len g).toNat, by omega⟩
      rw [hl]
      simp only [Int.toNat_natCast]
      refine same_bind (same_mapM _ _ _ fun j _ => same_mapM _ _ _ fun c _ => ?_) fun _ => same_ret _ _
      have key := same_maxV f items c (if (j + 1) * l > items.len then items.len else (j + 1) * l) (j * l) 0
      have h2 : ((if (j + 1) * l > items.len then items.len else (j + 1) * l : Nat) : Int) =
          if ((j : Int) + 1) * (l : Int) > items.len then (items.len : Int) else ((j : Int) + 1) * (l : Int) := by
        have : ((j : Int) + 1) * (l : Int) = (((j + 1) * l : Nat) : Int) := by rw [Int.natCast_mul]; rfl
        rw [this]
        split <;> split <;> omega
      rw [h2, Int.natCast_mul] at key
      exact key

theorem same_loopH (f : Flags) (t : Table σ ι ν ε) (items : Items) (mw margin : UInt16) (g0 : Nat) (fails : Nat → Bool)
    (k fuel extra : Nat) (cw : List UInt16) :
    runWith items fails k (compactLoopHT f t mw margin g0 fuel extra cw) =
      ([], match compactLoopH f t items mw margin g0 fuel extra cw with
        | none => .unfinished
        | some x => endOf x) := by
  induction fuel generalizing extra cw with
  | zero => rfl
  | succ fuel ih =>
    rw [compactLoopHT, compactLoopH]
    rw [runWith_bind, same_widthH f t items _ fails k]
    cases mergedRowsWidthH f t items (g0 + extra + 1) with
    | error p => rfl
    | ok cw' =>
      simp only [endOf, List.nil_append, List.length_nil, Nat.add_zero]
      split
      · rfl
      · rw [ih]
        rcases compactLoopH f t items mw margin g0 fuel (extra + 1) cw' with _ | p | x <;> rfl

theorem same_loopV (f : Flags) (t : Table σ ι ν ε) (items : Items) (mw margin : UInt16) (g0 : Nat) (hg : 1 ≤ g0)
    (fails : Nat → Bool) (k fuel extra : Nat) (cw : List UInt16) (he : extra = 0 ∨ g0 + extra ≤ items.len) :
    (runWith items fails k (compactLoopVT f t mw margin g0 fuel extra cw) = ([], .unfinished) ∧
      (extra + fuel = 0 ∨ g0 + extra + fuel ≤ items.len)) ∨
    runWith items fails k (compactLoopVT f t mw margin g0 fuel extra cw) =
      ([], endOf (compactLoopV f t items mw margin g0 hg extra cw)) := by
  induction fuel generalizing extra cw with
  | zero => exact .inl ⟨rfl, by omega⟩
  | succ fuel ih =>
    have hV : compactLoopV f t items mw margin g0 hg extra cw =
        match mergedRowsWidthV f t items (g0 + extra + 1) with
        | .error p => .error p
        | .ok none => .ok (extra, cw)
        | .ok (some cw') =>
          if compactTotal margin (UInt16.ofNat t.columnCount) (g0 + extra + 1) cw' > mw then .ok (extra, cw)
          else compactLoopV f t items mw margin g0 hg (extra + 1) cw' := by
      rw [compactLoopV]
      split <;> simp_all
    rw [compactLoopVT, hV, runWith_bind, same_widthV f t items _ (by omega) fails k]
    rcases hp : mergedRowsWidthV f t items (g0 + extra + 1) with p | _ | cw'
    · exact .inr rfl
    · exact .inr rfl
    · have hle := mergedRowsWidthV_some_le f t items _ _ (by omega) hp
      simp only [endOf, List.nil_append, List.length_nil, Nat.add_zero]
      split
      · exact .inr rfl
      · rcases ih (extra + 1) cw' (by omega) with ⟨h1, h2⟩ | h1
        · rw [h1]
          exact .inl ⟨rfl, by omega⟩
        · rw [h1]
          exact .inr rfl

theorem same_groups (f : Flags) (t : Table σ ι ν ε) (items : Items) (gw : Nat → Nat → Except Panic UInt16)
    (index : Nat → Nat) (g j : Nat) :
    Same items (lineGroupsT f t items.len gw index g j) (lineGroups f t items gw index g j) := by
  fun_induction lineGroups f t items gw index g j with
  | case1 j h idx hi =>
    rw [lineGroupsT, if_pos h]
    simp only
    rw [if_pos (by omega)]
    exact same_ret _ _
  | case2 j h idx hi ih =>
    rw [lineGroupsT, if_pos h]
    simp only
    rw [if_neg (by omega)]
    refine same_get ?_
    exact same_bind (same_ofExcept _ _) fun _ => same_bind ih fun _ => same_ret _ _
  | case3 j h =>
    rw [lineGroupsT, if_neg h]
    exact same_ret _ _

/-- The ending of a merge as it is told in a `MergeRun`. -/
def runEnd : Option Panic → Ending Unit
  | none => .returned ()
  | some p => .panicked p

theorem same_lines (sep : GoString) (items : Items) (fails : Nat → Bool) (lineT : Nat → Talk (List GoString))
    (line : Nat → Except Panic (List GoString)) (h : ∀ i, Same items (lineT i) (line i)) (L i : Nat) :
    runWith items fails i (writeLinesT sep lineT L i) =
      ((writeLines sep line fails L i).written, runEnd (writeLines sep line fails L i).panic) := by
  generalize hd : L - i = d
  induction d generalizing i with
  | zero =>
    rw [writeLinesT, writeLines, if_neg (by omega), if_neg (by omega)]
    rfl
  | succ d ih =>
    rw [writeLinesT, writeLines, if_pos (by omega), if_pos (by omega)]
    rw [runWith_bind, h i fails i]
    cases line i with
    | error p => rfl
    | ok parts =>
      simp only [endOf, List.nil_append, List.length_nil, Nat.add_zero]
      rw [runWith_bind]
      simp only [askWrite, runWith, List.length_cons, List.length_nil, List.cons_append, List.nil_append, Nat.zero_add]
      by_cases hf : fails i
      · simp only [hf, if_true]
        rfl
      · simp only [hf, if_false, Bool.false_eq_true]
        rw [ih (i + 1) (by omega)]

theorem same_printH (f : Flags) (t : Table σ ι ν ε) (items : Items) (sep : GoString) (fails : Nat → Bool) (g : Nat)
    (gw : Nat → Nat → Except Panic UInt16) :
    runWith items fails 0 (printHT f t sep g gw) =
      ((printH f t items sep fails g gw).written, runEnd (printH f t items sep fails g gw).panic) :=
  same_lines sep items fails _ _ (fun i => same_groups f t items gw (indexH g i) g 0) _ 0

theorem same_printV (f : Flags) (t : Table σ ι ν ε) (items : Items) (sep : GoString) (fails : Nat → Bool) (g : Nat)
    (gw : Nat → Nat → Except Panic UInt16) :
    runWith items fails 0 (printVT f t sep g gw) =
      ((printV f t items sep fails g gw).written, runEnd (printV f t items sep fails g gw).panic) :=
  same_lines sep items fails _ _
    (fun i => same_groups f t items gw (indexV (lineCountOf items.len g).toNat i) g 0) _ 0

theorem same_mergeH (f : Flags) (t : Table σ ι ν ε) (items : Items) (arg : Int) (sep : GoString) (compact : Bool)
    (fails : Nat → Bool) (fuel : Nat) :
    runWith items fails 0 (mergeRowsHorizontalT f t arg sep compact fuel) =
      match mergeRowsHorizontal f t items arg sep compact fails fuel with
      | none => ([], .unfinished)
      | some run => (run.written, runEnd run.panic) := by
  unfold mergeRowsHorizontalT mergeRowsHorizontal
  simp only
  rw [runWith_bind, same_ofExcept items _ fails 0]
  cases initialGroupCount t (maxWidthOf arg) (u16 sep.length) with
  | error p => rfl
  | ok g0 =>
    simp only [endOf, List.nil_append, List.length_nil, Nat.add_zero]
    cases compact with
    | false =>
      simp only [Bool.false_eq_true, if_false]
      rw [same_printH]
    | true =>
      simp only [if_true]
      rw [runWith_bind, same_loopH, compactCalcH]
      rcases compactLoopH f t items (maxWidthOf arg) (u16 sep.length) g0 fuel 0 [] with _ | p | ⟨ex, cw⟩
      · rfl
      · rfl
      · simp only [endOf, List.nil_append, List.length_nil, Nat.add_zero]
        split
        · rw [same_printH]
        · rw [same_printH]

theorem same_mergeV (f : Flags) (t : Table σ ι ν ε) (items : Items) (arg : Int) (sep : GoString) (compact : Bool)
    (fails : Nat → Bool) (fuel : Nat) :
    (runWith items fails 0 (mergeRowsVerticalT f t arg sep compact fuel) = ([], .unfinished) ∧ fuel ≤ items.len) ∨
    runWith items fails 0 (mergeRowsVerticalT f t arg sep compact fuel) =
      ((mergeRowsVertical f t items arg sep compact fails).written,
        runEnd (mergeRowsVertical f t items arg sep compact fails).panic) := by
  cases hg : initialGroupCount t (maxWidthOf arg) (u16 sep.length) with
  | error p =>
    right
    have hV : mergeRowsVertical f t items arg sep compact fails = ⟨[], some p⟩ := by
      unfold mergeRowsVertical
      simp only
      split
      · rename_i q hq
        rw [hg] at hq
        cases hq
        rfl
      · rename_i q hq
        rw [hg] at hq
        cases hq
    rw [hV]
    unfold mergeRowsVerticalT
    simp only
    rw [runWith_bind, same_ofExcept items _ fails 0, hg]
    rfl
  | ok g0 =>
    rw [mergeV_eq f t items arg sep compact fails g0 hg]
    unfold mergeRowsVerticalT
    simp only
    rw [runWith_bind, same_ofExcept items _ fails 0, hg]
    simp only [endOf, List.nil_append, List.length_nil, Nat.add_zero]
    cases compact with
    | false =>
      simp only [Bool.false_eq_true, if_false]
      rw [same_printV]
      exact .inr rfl
    | true =>
      simp only [if_true]
      rw [runWith_bind]
      rcases same_loopV f t items (maxWidthOf arg) (u16 sep.length) g0 (initialGroupCount_pos t _ _ _ hg) fails 0 fuel 0
        [] (.inl rfl) with ⟨h1, h2⟩ | h1
      · rw [h1]
        exact .inl ⟨rfl, by omega⟩
      · rw [h1, compactCalcV]
        right
        rcases compactLoopV f t items (maxWidthOf arg) (u16 sep.length) g0 (initialGroupCount_pos t _ _ _ hg) 0 []
          with p | ⟨ex, cw⟩
        · rfl
        · simp only [endOf, List.nil_append, List.length_nil, Nat.add_zero]
          split
          · rw [same_printV]
          · rw [same_printV]

end GoTable
