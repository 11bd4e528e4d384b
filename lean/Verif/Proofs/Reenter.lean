import Verif.Spec.Reenter
import Verif.Proofs.U16
/-! # Proofs about methods whose getters and alignments use the table -/

namespace GoTable
open Spec

variable {ι ν ε α : Type}

theorem raise_without_map (name : GoString) (w : UInt16) :
    raiseWidth none name w = if w = 0 then .ok none else .error .mapWrite := by
  by_cases h : w = 0
  · subst h
    rfl
  · rw [if_neg h]
    unfold raiseWidth
    rw [if_pos]
    show (0 : UInt16) < w
    rw [UInt16.lt_iff_toNat_lt]
    have : w.toNat ≠ 0 := fun h' => h (UInt16.toNat_inj.mp (by simpa using h'))
    simpa using Nat.pos_of_ne_zero this

theorem max_of_lt {a b : UInt16} (h : a < b) : max a b = b := by
  rw [show max a b = if a ≤ b then b else a from rfl, if_pos (UInt16.le_of_lt h)]

theorem max_of_not_lt {a b : UInt16} (h : ¬ a < b) : max a b = a := by
  rw [show max a b = if a ≤ b then b else a from rfl]
  split
  · rename_i h'
    exact UInt16.le_antisymm (UInt16.not_lt.mp h) h'
  · rfl

theorem raise_with_map (m : WidthMap) (name : GoString) (w : UInt16) :
    raiseWidth (some m) name w = .ok (some fun k => if k = name then max (m k) w else m k) := by
  unfold raiseWidth
  by_cases h : m name < w
  · rw [if_pos (show w > readWidth (some m) name from h)]
    simp only [Except.ok.injEq, Option.some.injEq]
    funext k
    simp only [WidthMap.set]
    split
    · rename_i hk
      subst hk
      rw [max_of_lt h]
    · rfl
  · rw [if_neg (show ¬ w > readWidth (some m) name from h)]
    simp only [Except.ok.injEq, Option.some.injEq]
    funext k
    split
    · rename_i hk
      subst hk
      rw [max_of_not_lt h]
    · rfl

theorem raise_eq (o : Objects) (cw : Option Nat) (name : GoString) (w : UInt16) :
    (CanNote cw w → o.raise cw name w = .ok (noted cw name w o)) ∧
    (¬ CanNote cw w → o.raise cw name w = .error .mapWrite) := by
  unfold CanNote Objects.raise noted
  cases cw with
  | none =>
    simp only [Option.map_none]
    rw [raise_without_map]
    constructor
    · intro h
      rw [if_pos (h.resolve_left (by simp))]
      simp
    · intro h; rw [if_neg (fun hw => h (.inr hw))]
  | some r =>
    simp only [Option.map_some]
    rw [raise_with_map]
    refine ⟨fun _ => ?_, fun h => absurd (.inl (by simp)) h⟩
    simp only [Except.ok.injEq, Objects.mk.injEq, true_and, and_true]
    funext r' k
    by_cases hr : r = r'
    · subst hr
      by_cases hk : k = name <;> simp [hk]
    · simp [hr]

/-- What `formatItemFrom` does. -/
theorem formats_from (cw : Option Nat) (item : ι) (s : Slice) (i : Nat) (acc : List GoString) (o : Objects)
    {es : List (CallEvent ι ν ε)} {e : Outcome (Except ε (List GoString))} {o' : Objects} (hi : i ≤ s.len)
    (h : Chats (formatItemFrom cw item s i acc o) es e o') :
    ∃ (cs : List (Finished ν)) (es1 : List (CallEvent ι ν ε)) (o1 : Objects),
      Makes cw item s i o cs es1 o1 ∧
      ((i + cs.length = s.len ∧ es = es1 ∧ e = .returned (.ok (acc ++ cs.map (·.text))) ∧ o' = o1) ∨
       (i + cs.length < s.len ∧ ∃ tail, es = es1 ++ tail ∧
         Stops cw item s (i + cs.length) o1 tail e o')) := by
  generalize hn : s.len - i = n
  induction n generalizing i acc o es with
  | zero =>
    have : i = s.len := by omega
    subst this
    rw [formatItemFrom, if_neg (Nat.lt_irrefl _)] at h
    cases h
    exact ⟨[], [], _, .none _ _, .inl ⟨rfl, rfl, by simp, rfl⟩⟩
  | succ n ih =>
    have hlt : i < s.len := by omega
    have stop : ∀ {tail e o'}, Stops cw item s i o tail e o' →
        ∃ (cs : List (Finished ν)) (es1 : List (CallEvent ι ν ε)) (o1 : Objects),
          Makes cw item s i o cs es1 o1 ∧
          ((i + cs.length = s.len ∧ tail = es1 ∧ e = .returned (.ok (acc ++ cs.map (·.text))) ∧ o' = o1) ∨
          (i + cs.length < s.len ∧ ∃ tail', tail = es1 ++ tail' ∧
            Stops cw item s (i + cs.length) o1 tail' e o')) :=
      fun hs => ⟨[], [], _, .none _ _, .inr ⟨hlt, _, rfl, hs⟩⟩
    rw [formatItemFrom, if_pos hlt] at h
    cases hcol : o.element s.array (s.first + i) with
    | none =>
      simp only [hcol] at h
      cases h
      exact stop (.nilColumn hcol)
    | some col =>
      simp only [hcol] at h
      cases hg : (o.column col).getter with
      | none =>
        simp only [hg] at h
        cases h
        exact stop (.nilGetter col hcol hg)
      | some g =>
        simp only [hg] at h
        cases h with
        | value r o1 h =>
        cases r with
        | panicked => cases h; exact stop (.valuePanics col g _ hcol hg)
        | error e => cases h; exact stop (.valueError col g e _ hcol hg)
        | ok v =>
          simp only at h
          cases hg' : (o1.column col).getter with
          | none =>
            simp only [hg'] at h
            cases h
            exact stop (.getterGone col g v _ hcol hg hg')
          | some g' =>
            simp only [hg'] at h
            cases h with
            | format r o2 h =>
            cases r with
            | panicked => cases h; exact stop (.formatPanics col g g' v o1 _ hcol hg hg')
            | error e => cases h; exact stop (.formatError col g g' v o1 e _ hcol hg hg')
            | ok x =>
              simp only at h
              have hc : (⟨col, g, v, o1, g', x, o2⟩ : Finished ν).Of s i o := ⟨hcol, hg, hg'⟩
              by_cases hw : CanNote cw (o2.answer i x)
              · rw [(raise_eq o2 cw _ _).1 hw] at h
                obtain ⟨cs, es1, o3, hm, hr⟩ := ih (i + 1) (acc ++ [x]) _ hlt h (by omega)
                refine ⟨⟨col, g, v, o1, g', x, o2⟩ :: cs, _, o3, .one i o _ cs es1 o3 hc hw hm, ?_⟩
                rcases hr with ⟨h1, rfl, h3, rfl⟩ | ⟨h1, tail, rfl, h3⟩
                · left
                  refine ⟨by rw [List.length_cons]; omega, rfl, ?_, rfl⟩
                  rw [h3]
                  simp
                · right
                  refine ⟨by rw [List.length_cons]; omega, tail, rfl, ?_⟩
                  rw [show i + (⟨col, g, v, o1, g', x, o2⟩ :: cs : List (Finished ν)).length = i + 1 + cs.length by
                    rw [List.length_cons]; omega]
                  exact h3
              · rw [(raise_eq o2 cw _ _).2 hw] at h
                cases h
                exact stop (.nilMap ⟨col, g, v, o1, g', x, _⟩ hc hw)

/-- The column at position `i` is the end of the work. -/
theorem stops_formats (cw : Option Nat) (item : ι) (s : Slice) (i : Nat) (acc : List GoString) (o : Objects)
    {es : List (CallEvent ι ν ε)} {e : Outcome (Except ε (List GoString))} {o' : Objects} (hi : i < s.len)
    (h : Stops cw item s i o es e o') : Chats (formatItemFrom cw item s i acc o) es e o' := by
  rw [formatItemFrom, if_pos hi]
  cases h with
  | nilColumn h => simp only [h]; exact .panic _ _
  | nilGetter col h hg => simp only [h, hg]; exact .panic _ _
  | valueError col g e o' h hg => simp only [h, hg]; exact .value _ _ (.ret _ _)
  | valuePanics col g o' h hg => simp only [h, hg]; exact .value _ _ (.panic _ _)
  | getterGone col g v o' h hg hg' =>
    simp only [h, hg]
    refine .value _ _ ?_
    simp only [hg']
    exact .panic _ _
  | formatError col g g' v o' e o'' h hg hg' =>
    simp only [h, hg]
    refine .value _ _ ?_
    simp only [hg']
    exact .format _ _ (.ret _ _)
  | formatPanics col g g' v o' o'' h hg hg' =>
    simp only [h, hg]
    refine .value _ _ ?_
    simp only [hg']
    exact .format _ _ (.panic _ _)
  | nilMap c hc hw =>
    obtain ⟨h1, h2, h3⟩ := hc
    simp only [h1, h2]
    refine .value _ _ ?_
    simp only [h3]
    refine .format _ _ ?_
    simp only [(raise_eq c.after cw (c.after.column c.column).name _).2 hw]
    exact .panic _ _

/-- What is described is what `formatItemFrom` does. -/
theorem makes_formats (cw : Option Nat) (item : ι) (s : Slice) {i : Nat} {o : Objects} {cs : List (Finished ν)}
    {es1 : List (CallEvent ι ν ε)} {o1 : Objects} (hm : Makes cw item s i o cs es1 o1)
    (acc : List GoString) {tail : List (CallEvent ι ν ε)} {e : Outcome (Except ε (List GoString))} {o' : Objects}
    (hlen : i + cs.length ≤ s.len)
    (h : Chats (formatItemFrom cw item s (i + cs.length) (acc ++ cs.map (·.text)) o1) tail e o') :
    Chats (formatItemFrom cw item s i acc o) (es1 ++ tail) e o' := by
  induction hm generalizing acc with
  | none i o => simpa using h
  | one i o c cs es o1 hc hw hm ih =>
    rw [List.length_cons] at hlen h
    obtain ⟨h1, h2, h3⟩ := hc
    rw [formatItemFrom, if_pos (by omega)]
    simp only [h1, h2]
    refine .value _ _ ?_
    simp only [h3]
    refine .format _ _ ?_
    simp only [(raise_eq c.after cw (c.after.column c.column).name _).1 hw]
    refine ih (acc ++ [c.text]) (by omega) ?_
    rw [show i + 1 + cs.length = i + (cs.length + 1) by omega]
    simpa using h

/-! ## The other methods -/

/-- The texts that follow a first one, each after a separator. -/
theorem intercalate_cons (sep x : GoString) (xs : List GoString) :
    List.intercalate sep (x :: xs) = x ++ (xs.map (sep ++ ·)).flatten := by
  induction xs generalizing x with
  | nil => simp [List.intercalate]
  | cons y ys ih =>
    have := ih y
    rw [List.map_cons, List.flatten_cons, List.append_assoc, ← this]
    simp [List.intercalate]

theorem collects_from (item : ι) (sep : GoString) (s : Slice) (i : Nat) (str : GoString) (o : Objects)
    {es : List (CallEvent ι ν ε)} {e : Outcome (Except ε GoString)} {o' : Objects} (hi : i ≤ s.len)
    (h : Chats (formatItemBasicFrom item sep s i str o) es e o') :
    ∃ texts r, Collects item s i o texts es r o' ∧
      e = r.getD (.returned (.ok (str ++
        (if i = 0 then List.intercalate sep texts else (texts.map (sep ++ ·)).flatten)))) := by
  generalize hn : s.len - i = n
  induction n generalizing i str o es with
  | zero =>
    have : i = s.len := by omega
    subst this
    rw [formatItemBasicFrom, if_neg (Nat.lt_irrefl _)] at h
    cases h
    exact ⟨[], none, .all _ _ rfl, by simp⟩
  | succ n ih =>
    have hlt : i < s.len := by omega
    rw [formatItemBasicFrom, if_pos hlt] at h
    cases hcol : o.element s.array (s.first + i) with
    | none =>
      simp only [hcol] at h
      cases h
      exact ⟨[], _, .nilColumn i _ hlt hcol, rfl⟩
    | some col =>
      simp only [hcol] at h
      cases hg : (o.column col).getter with
      | none =>
        simp only [hg] at h
        cases h
        exact ⟨[], _, .nilGetter i _ col hlt hcol hg, rfl⟩
      | some g =>
        simp only [hg] at h
        cases h with
        | valueString r o1 h =>
        cases r with
        | panicked => cases h; exact ⟨[], _, .panics i o col g _ hlt hcol hg, rfl⟩
        | error e => cases h; exact ⟨[], _, .fails i o col g e _ hlt hcol hg, rfl⟩
        | ok x =>
          simp only at h
          obtain ⟨texts, r, h1, h2⟩ := ih (i + 1) _ _ hlt h (by omega)
          refine ⟨x :: texts, r, .one i o col g x o1 texts _ r o' hlt hcol hg h1, ?_⟩
          rw [h2, if_neg (Nat.succ_ne_zero i)]
          by_cases h0 : i = 0
          · rw [if_neg (show ¬ i > 0 by omega), if_pos h0, intercalate_cons, List.append_assoc]
          · rw [if_pos (show i > 0 by omega), if_neg h0]
            simp

theorem collects_basic (item : ι) (sep : GoString) (s : Slice) {i : Nat} {o : Objects} {texts : List GoString}
    {es : List (CallEvent ι ν ε)} {r : Option (Outcome (Except ε GoString))} {o' : Objects}
    (h : Collects item s i o texts es r o') (str : GoString) :
    Chats (formatItemBasicFrom item sep s i str o) es (r.getD (.returned (.ok (str ++
        (if i = 0 then List.intercalate sep texts else (texts.map (sep ++ ·)).flatten))))) o' := by
  induction h generalizing str with
  | all i o h =>
    rw [formatItemBasicFrom, if_neg (by omega)]
    simp only [Option.getD_none, List.map_nil, List.flatten_nil]
    rw [show (if i = 0 then List.intercalate sep [] else []) = ([] : GoString) by split <;> rfl, List.append_nil]
    exact .ret _ _
  | nilColumn i o hi h =>
    rw [formatItemBasicFrom, if_pos hi]
    simp only [h]
    exact .panic _ _
  | nilGetter i o col hi h hg =>
    rw [formatItemBasicFrom, if_pos hi]
    simp only [h, hg]
    exact .panic _ _
  | fails i o col g e o' hi h hg =>
    rw [formatItemBasicFrom, if_pos hi]
    simp only [h, hg]
    exact .valueString _ _ (.ret _ _)
  | panics i o col g o' hi h hg =>
    rw [formatItemBasicFrom, if_pos hi]
    simp only [h, hg]
    exact .valueString _ _ (.panic _ _)
  | one i o col g text o' texts es e o'' hi h hg rest ih =>
    rw [formatItemBasicFrom, if_pos hi]
    simp only [h, hg]
    refine .valueString _ _ ?_
    have := ih ((if i > 0 then str ++ sep else str) ++ text)
    rw [if_neg (Nat.succ_ne_zero i)] at this
    have heq : (str ++ if i = 0 then List.intercalate sep (text :: texts)
        else ((text :: texts).map (sep ++ ·)).flatten) =
        (if i > 0 then str ++ sep else str) ++ text ++ (texts.map (sep ++ ·)).flatten := by
      by_cases h0 : i = 0
      · rw [if_neg (show ¬ i > 0 by omega), if_pos h0, intercalate_cons, List.append_assoc]
      · rw [if_pos (show i > 0 by omega), if_neg h0]
        simp
    rw [heq]
    exact this

theorem aligns_align (t : Nat) (formatted s : Slice) {i : Nat} {o : Objects} {es : List (CallEvent ι ν ε)}
    {e : Outcome (Except (Nat × Nat) Slice)} {o' : Objects} (h : Aligns t formatted s i o es e o') :
    Chats (alignItemFrom t formatted s i o) es e o' := by
  have rw_eq : ∀ (o : Objects) name, ((o.widths t).map fun m => m name).getD 0 = readWidth (o.widths t) name := by
    intro o name
    cases o.widths t <;> rfl
  induction h with
  | all i o h => rw [alignItemFrom, if_neg (by omega)]; exact .ret _ _
  | nilColumn i o hi h =>
    rw [alignItemFrom, if_pos hi]
    simp only [h]
    exact .panic _ _
  | unaligned i o col es e o' hi h ha rest ih =>
    rw [alignItemFrom, if_pos hi]
    simp only [h, ha]
    exact ih
  | panics i o col al w o' hi h ha hw =>
    rw [alignItemFrom, if_pos hi]
    simp only [h, ha]
    rw [rw_eq] at hw
    rw [hw]
    exact .align _ _ (.panic _ _)
  | one i o col al w text o' es e o'' hi h ha hw rest ih =>
    rw [alignItemFrom, if_pos hi]
    simp only [h, ha]
    rw [rw_eq] at hw
    rw [hw]
    exact .align _ _ ih

theorem aligns_from (t : Nat) (formatted s : Slice) (i : Nat) (o : Objects)
    {es : List (CallEvent ι ν ε)} {e : Outcome (Except (Nat × Nat) Slice)} {o' : Objects} (hi : i ≤ s.len)
    (h : Chats (alignItemFrom t formatted s i o) es e o') : Aligns t formatted s i o es e o' := by
  generalize hn : s.len - i = n
  induction n generalizing i o es with
  | zero =>
    have : i = s.len := by omega
    subst this
    rw [alignItemFrom, if_neg (Nat.lt_irrefl _)] at h
    cases h
    exact .all _ _ rfl
  | succ n ih =>
    have hlt : i < s.len := by omega
    rw [alignItemFrom, if_pos hlt] at h
    cases hcol : o.element s.array (s.first + i) with
    | none =>
      simp only [hcol] at h
      cases h
      exact .nilColumn i _ hlt hcol
    | some col =>
      simp only [hcol] at h
      cases ha : (o.column col).alignment with
      | none =>
        simp only [ha] at h
        exact .unaligned i o col es e o' hlt hcol ha (ih (i + 1) o hlt h (by omega))
      | some al =>
        simp only [ha] at h
        have hw : ((o.widths t).map fun m => m (o.column col).name).getD 0 =
            readWidth (o.widths t) (o.column col).name := by
          cases o.widths t <;> rfl
        cases h with
        | align r o1 h =>
        cases r with
        | none => cases h; exact .panics i o col al _ _ hlt hcol ha hw
        | some x => exact .one i o col al _ x o1 _ e o' hlt hcol ha hw (ih (i + 1) _ hlt h (by omega))

/-! ## Widths only grow -/

theorem grown_refl (o : Objects) : Grown o o := fun _ _ => UInt16.le_refl _

theorem grown_trans {a b c : Objects} (h1 : Grown a b) (h2 : Grown b c) : Grown a c :=
  fun r k => UInt16.le_trans (h1 r k) (h2 r k)

theorem grown_open {o o' : Objects} (h : o'.recorded = o.recorded) : Grown o o' := by
  intro r k
  rw [h]
  exact UInt16.le_refl _

theorem le_max_left' (a b : UInt16) : a ≤ max a b := by
  by_cases h : a < b
  · rw [max_of_lt h]; exact UInt16.le_of_lt h
  · rw [max_of_not_lt h]; exact UInt16.le_refl _

theorem le_max_right' (a b : UInt16) : b ≤ max a b := by
  by_cases h : a < b
  · rw [max_of_lt h]; exact UInt16.le_refl _
  · rw [max_of_not_lt h]; exact UInt16.not_lt.mp h

theorem grown_noted (cw : Option Nat) (name : GoString) (w : UInt16) (o : Objects) : Grown o (noted cw name w o) := by
  intro r k
  simp only [noted]
  split
  · exact le_max_left' _ _
  · exact UInt16.le_refl _

theorem grown_updates {t : Nat} {entries : List (GoString × UInt16)} {o o' : Objects}
    (h : Updates t entries o o') : Grown o o' := by
  induction h with
  | nil => exact grown_refl _
  | cons name w rest o o' hw h ih => exact grown_trans (grown_noted _ name w o) ih
  | panics => exact grown_refl _

theorem grown_makes {cw : Option Nat} {item : ι} {s : Slice} {i : Nat} {o o' : Objects}
    {cs : List (Finished ν)} {es : List (CallEvent ι ν ε)} (h : Makes cw item s i o cs es o')
    (hs : ∀ ev ∈ es, Grown ev.before ev.after) : Grown o o' := by
  induction h with
  | none => exact grown_refl _
  | one i o c cs es o' hc hw h ih =>
    have h1 := hs (.value c.getter item o (.ok c.value) c.between) (by simp [Finished.calls])
    have h2 := hs (.format c.formatter item c.value c.between (.ok c.text) c.after) (by simp [Finished.calls])
    exact grown_trans (grown_trans (grown_trans h1 h2) (grown_noted cw c.name (c.after.answer i c.text) c.after))
      (ih fun ev hev => hs ev (by simp [hev]))

theorem grown_stops {cw : Option Nat} {item : ι} {s : Slice} {i : Nat} {o o' : Objects}
    {es : List (CallEvent ι ν ε)} {e : Outcome (Except ε (List GoString))}
    (h : Stops (ν := ν) cw item s i o es e o') (hs : ∀ ev ∈ es, Grown ev.before ev.after) : Grown o o' := by
  cases h with
  | nilColumn => exact grown_refl _
  | nilGetter => exact grown_refl _
  | valueError col g e => exact hs _ (List.mem_cons_self ..)
  | valuePanics col g => exact hs _ (List.mem_cons_self ..)
  | getterGone col g v => exact hs _ (List.mem_cons_self ..)
  | formatError col g g' v o1 e o2 =>
    exact grown_trans (hs _ (List.mem_cons_self ..)) (hs _ (List.mem_cons_of_mem _ (List.mem_cons_self ..)))
  | formatPanics col g g' v o1 o2 =>
    exact grown_trans (hs _ (List.mem_cons_self ..)) (hs _ (List.mem_cons_of_mem _ (List.mem_cons_self ..)))
  | nilMap c =>
    exact grown_trans (hs _ (List.mem_cons_self ..)) (hs _ (List.mem_cons_of_mem _ (List.mem_cons_self ..)))

theorem grown_formats {t : Nat} {item : ι} {o o' : Objects} {es : List (CallEvent ι ν ε)}
    {e : Outcome (Except ε (List GoString))} (h : Chats (formatItemR t item o) es e o')
    (hs : ∀ ev ∈ es, Grown ev.before ev.after) : Grown o o' := by
  unfold formatItemR at h
  split at h
  · cases h; exact grown_refl _
  · obtain ⟨cs, es1, o1, hm, hr⟩ := formats_from (o.widthMap t) item _ 0 [] o (Nat.zero_le _) h
    rcases hr with ⟨_, rfl, _, rfl⟩ | ⟨_, tail, rfl, hst⟩
    · exact grown_makes hm hs
    · exact grown_trans (grown_makes hm fun ev hev => hs ev (by simp [hev]))
        (grown_stops hst fun ev hev => hs ev (by simp [hev]))

theorem grown_collects {item : ι} {s : Slice} {i : Nat} {o o' : Objects} {texts : List GoString}
    {es : List (CallEvent ι ν ε)} {e : Option (Outcome (Except ε GoString))}
    (h : Collects item s i o texts es e o') (hs : ∀ ev ∈ es, Grown ev.before ev.after) : Grown o o' := by
  induction h with
  | all => exact grown_refl _
  | nilColumn => exact grown_refl _
  | nilGetter => exact grown_refl _
  | fails i o col g e o' => exact hs _ (List.mem_cons_self ..)
  | panics i o col g o' => exact hs _ (List.mem_cons_self ..)
  | one i o col g text o' texts es e o'' hi h hg rest ih =>
    exact grown_trans (hs _ (List.mem_cons_self ..)) (ih fun ev hev => hs ev (List.mem_cons_of_mem _ hev))

theorem grown_aligns {t : Nat} {formatted s : Slice} {i : Nat} {o o' : Objects} {es : List (CallEvent ι ν ε)}
    {e : Outcome (Except (Nat × Nat) Slice)} (h : Aligns t formatted s i o es e o')
    (hs : ∀ ev ∈ es, Grown ev.before ev.after) : Grown o o' := by
  induction h with
  | all => exact grown_refl _
  | nilColumn => exact grown_refl _
  | unaligned i o col es e o' hi h ha rest ih => exact ih hs
  | panics => exact hs _ (List.mem_cons_self ..)
  | one i o col al w text o' es e o'' hi h ha hw rest ih =>
    exact grown_trans (hs _ (List.mem_cons_self ..))
      (grown_trans (grown_open (o := o') (o' := put formatted i text o') rfl)
        (ih fun ev hev => hs ev (List.mem_cons_of_mem _ hev)))

theorem grown_basic {t : Nat} {item : ι} {sep : GoString} {o o' : Objects} {es : List (CallEvent ι ν ε)}
    {e : Outcome (Except ε GoString)} (h : Chats (formatItemBasicR t item sep o) es e o')
    (hs : ∀ ev ∈ es, Grown ev.before ev.after) : Grown o o' := by
  unfold formatItemBasicR at h
  split at h
  · cases h; exact grown_refl _
  · obtain ⟨texts, r, hc, _⟩ := collects_from item sep _ 0 [] o (Nat.zero_le _) h
    exact grown_collects hc hs

theorem grown_align {t : Nat} {formatted : Slice} {o o' : Objects} {es : List (CallEvent ι ν ε)}
    {e : Outcome (Except (Nat × Nat) Slice)} (h : Chats (alignItemR t formatted o) es e o')
    (hs : ∀ ev ∈ es, Grown ev.before ev.after) : Grown o o' := by
  unfold alignItemR at h
  split at h
  · cases h; exact grown_refl _
  · split at h
    · cases h; exact grown_refl _
    · exact grown_aligns (aligns_from t formatted _ 0 o (Nat.zero_le _) h) hs

/-! ## The calls by number -/

theorem makes_events {cw : Option Nat} {item : ι} {s : Slice} {i : Nat} {o o' : Objects}
    {cs : List (Finished ν)} {es : List (CallEvent ι ν ε)} (h : Makes cw item s i o cs es o') :
    es.length = 2 * cs.length ∧ ∀ k c, cs[k]? = some c → ∃ before, c.Of s (i + k) before ∧
      es[2 * k]? = some (.value c.getter item before (.ok c.value) c.between) ∧
      es[2 * k + 1]? = some (.format c.formatter item c.value c.between (.ok c.text) c.after) := by
  induction h with
  | none => exact ⟨rfl, fun k c hk => by simp at hk⟩
  | one i o c cs es o' hc hw h ih =>
    refine ⟨by simp only [Finished.calls, List.length_append, List.length_cons, List.length_nil, ih.1]; omega, ?_⟩
    intro k c' hk
    cases k with
    | zero =>
      simp only [List.getElem?_cons_zero, Option.some.injEq] at hk
      subst hk
      exact ⟨o, hc, rfl, rfl⟩
    | succ k =>
      simp only [List.getElem?_cons_succ] at hk
      obtain ⟨b, h1, h2, h3⟩ := ih.2 k c' hk
      refine ⟨b, by rwa [show i + (k + 1) = i + 1 + k by omega], ?_, ?_⟩
      · rw [show 2 * (k + 1) = 2 * k + 2 by omega]
        exact h2
      · rw [show 2 * (k + 1) + 1 = 2 * k + 1 + 2 by omega]
        exact h3

theorem makes_covered {cw : Option Nat} {item : ι} {s : Slice} {i : Nat} {o o' : Objects}
    {cs : List (Finished ν)} {es : List (CallEvent ι ν ε)} (h : Makes cw item s i o cs es o')
    (hs : ∀ ev ∈ es, Grown ev.before ev.after) (c : Finished ν) (k : Nat) (hk : cs[k]? = some c) (r : Nat)
    (hm : cw = some r) : c.after.answer (i + k) c.text ≤ o'.recorded r c.name := by
  induction h generalizing k with
  | none => simp at hk
  | one i o c' cs es o' hc hw h ih =>
    have hrest : ∀ ev ∈ es, Grown ev.before ev.after := fun ev hev => hs ev (by simp [hev])
    cases k with
    | zero =>
      simp only [List.getElem?_cons_zero, Option.some.injEq] at hk
      subst hk
      refine UInt16.le_trans ?_ (grown_makes h hrest r c'.name)
      simp only [noted, hm, and_self, if_true, Nat.add_zero]
      exact le_max_right' _ _
    | succ k =>
      rw [show i + (k + 1) = i + 1 + k by omega]
      exact ih hrest k hk

/-! ## Other maps -/

theorem makes_frame {cw : Option Nat} {item : ι} {s : Slice} {i : Nat} {o o' : Objects}
    {cs : List (Finished ν)} {es : List (CallEvent ι ν ε)} (h : Makes cw item s i o cs es o') {r : Nat}
    (hr : cw ≠ some r) (hs : ∀ ev ∈ es, ev.after.recorded r = ev.before.recorded r) :
    o'.recorded r = o.recorded r := by
  induction h with
  | none => rfl
  | one i o c cs es o' hc hw h ih =>
    have h1 := hs (.value c.getter item o (.ok c.value) c.between) (by simp [Finished.calls])
    have h2 := hs (.format c.formatter item c.value c.between (.ok c.text) c.after) (by simp [Finished.calls])
    have h3 : (noted cw c.name (c.after.answer i c.text) c.after).recorded r = c.after.recorded r := by
      funext k
      simp only [noted]
      rw [if_neg (fun hc => hr hc.1)]
    exact (ih fun ev hev => hs ev (by simp [hev])).trans (h3.trans (h2.trans h1))

theorem stops_frame {cw : Option Nat} {item : ι} {s : Slice} {i : Nat} {o o' : Objects}
    {es : List (CallEvent ι ν ε)} {e : Outcome (Except ε (List GoString))}
    (h : Stops (ν := ν) cw item s i o es e o') {r : Nat}
    (hs : ∀ ev ∈ es, ev.after.recorded r = ev.before.recorded r) : o'.recorded r = o.recorded r := by
  cases h with
  | nilColumn => rfl
  | nilGetter => rfl
  | valueError col g e => exact hs _ (List.mem_cons_self ..)
  | valuePanics col g => exact hs _ (List.mem_cons_self ..)
  | getterGone col g v => exact hs _ (List.mem_cons_self ..)
  | formatError col g g' v o1 e o2 =>
    exact (hs _ (List.mem_cons_of_mem _ (List.mem_cons_self ..))).trans (hs _ (List.mem_cons_self ..))
  | formatPanics col g g' v o1 o2 =>
    exact (hs _ (List.mem_cons_of_mem _ (List.mem_cons_self ..))).trans (hs _ (List.mem_cons_self ..))
  | nilMap c =>
    exact (hs _ (List.mem_cons_of_mem _ (List.mem_cons_self ..))).trans (hs _ (List.mem_cons_self ..))

theorem formats_frame {t : Nat} {item : ι} {o o' : Objects} {es : List (CallEvent ι ν ε)}
    {e : Outcome (Except ε (List GoString))} (h : Chats (formatItemR t item o) es e o') {r : Nat}
    (hr : o.widthMap t ≠ some r) (hs : ∀ ev ∈ es, ev.after.recorded r = ev.before.recorded r) :
    o'.recorded r = o.recorded r := by
  unfold formatItemR at h
  split at h
  · cases h; rfl
  · obtain ⟨cs, es1, o1, hm, hr'⟩ := formats_from (o.widthMap t) item _ 0 [] o (Nat.zero_le _) h
    rcases hr' with ⟨_, rfl, _, rfl⟩ | ⟨_, tail, rfl, hst⟩
    · exact makes_frame hm hr hs
    · exact (stops_frame hst fun ev hev => hs ev (by simp [hev])).trans
        (makes_frame hm hr fun ev hev => hs ev (by simp [hev]))

/-! ## Quiet user code -/

theorem quiet_from {σ : Type} (G : Nat → Getter σ ι ν ε) (f : Flags) (cw : Option Nat) (item : ι) (s : Slice) (i : Nat)
    (acc : List GoString) (o : Objects) {es : List (CallEvent ι ν ε)} {e : Outcome (Except ε (List GoString))}
    {o' : Objects} {st st' : σ} (hi : i ≤ s.len) (h : Chats (formatItemFrom cw item s i acc o) es e o')
    (hq : QuietTable G st es st') (Ok : GoString → Prop)
    (hf : ∀ i s, Ok s → o.answer i s = visualWidth f s)
    (ha : ∀ ev ∈ es, (∀ i s, Ok s → ev.before.answer i s = visualWidth f s) →
      ∀ i s, Ok s → ev.after.answer i s = visualWidth f s)
    (hx : ∀ g item v before x after, CallEvent.format g item v before (.ok x) after ∈ es → Ok x)
    (hg : ∀ k col, k < s.len → o.element s.array (s.first + k) = some col → (o.column col).getter ≠ none) :
    ∃ fe, endOfCall e = some fe ∧ literalFormatLoop f item ((List.range' i (s.len - i)).map fun k =>
      (o.element s.array (s.first + k)).map fun col => columnValue G (o.column col)) acc (cw.map o.recorded) st =
      (fe, cw.map o'.recorded, st') ∧
      o' = { o with recorded := fun r => if cw = some r then o'.recorded r else o.recorded r, answer := o'.answer } ∧
      ∀ i s, Ok s → o'.answer i s = visualWidth f s := by
  have same : ∀ o o' : Objects, o'.ButAnswers o →
      o' = { o with recorded := fun r => if cw = some r then o'.recorded r else o.recorded r, answer := o'.answer } := by
    intro o o' h
    rw [show o' = { o with answer := o'.answer } from h]
    simp only [ite_self]
  generalize hn : s.len - i = n
  induction n generalizing i acc o es st with
  | zero =>
    have : i = s.len := by omega
    subst this
    rw [formatItemFrom, if_neg (Nat.lt_irrefl _)] at h
    cases h
    cases hq
    exact ⟨_, rfl, rfl, same _ _ rfl, hf⟩
  | succ n ih =>
    have hlt : i < s.len := by omega
    rw [formatItemFrom, if_pos hlt] at h
    rw [List.range'_succ, List.map_cons]
    cases hcol : o.element s.array (s.first + i) with
    | none =>
      simp only [hcol] at h
      cases h
      cases hq
      exact ⟨_, rfl, rfl, same _ _ rfl, hf⟩
    | some col =>
      have hgc := hg i col hlt hcol
      simp only [hcol] at h
      cases hgg : (o.column col).getter with
      | none => exact absurd hgg hgc
      | some g =>
        simp only [hgg] at h
        have hG : (columnValue G (o.column col)).getter = G g := by simp [columnValue, hgg]
        cases h with
        | value r o1 h =>
        cases hq with
        | value _ _ _ _ _ _ _ ho1 hq =>
        simp only [Option.map_some, literalFormatLoop, hG]
        rcases hv : (G g).value item st with ⟨e | v, st1⟩
        · simp only [hv, replyOf] at h hq
          have hw : o1.recorded = o.recorded := by rw [ho1]
          cases h
          cases hq
          exact ⟨_, rfl, by rw [hw], same _ _ ho1, ha _ (List.mem_cons_self ..) hf⟩
        · have hc1 : o1.column = o.column := by rw [ho1]
          simp only [hv, replyOf, hc1, hgg] at h hq
          cases h with
          | format r o2 h =>
          cases hq with
          | format _ _ _ _ _ _ _ _ ho2 hq =>
          have ho : o2.ButAnswers o := by
            unfold Objects.ButAnswers at *
            rw [ho2, ho1]
          obtain ⟨a2, rfl⟩ : ∃ a, o2 = { o with answer := a } := ⟨_, ho⟩
          rcases hfm : (G g).format item v st1 with ⟨e | x, st2⟩
          · simp only [hfm, replyOf] at h hq
            cases h
            cases hq
            exact ⟨_, rfl, by simp only [hfm], same _ _ rfl, ha _ (List.mem_cons_of_mem _ (List.mem_cons_self ..)) (ha _ (List.mem_cons_self ..) hf)⟩
          · simp only [hfm, replyOf] at h hq
            simp only [Objects.raise] at h
            have hname : (columnValue G (o.column col)).name = (o.column col).name := rfl
            rw [hname]
            have hOk : Ok x := hx g item v o1 x { o with answer := a2 } (by
              simp only [hfm, replyOf]
              exact List.mem_cons_of_mem _ (List.mem_cons_self ..))
            have hf2 : ∀ i s, Ok s → a2 i s = visualWidth f s :=
              ha _ (List.mem_cons_of_mem _ (List.mem_cons_self ..)) (ha _ (List.mem_cons_self ..) hf)
            rw [hf2 i x hOk] at h
            have ha' := fun ev hev => ha ev (List.mem_cons_of_mem _ (List.mem_cons_of_mem _ hev))
            have hx' := fun g item v b x a hev =>
              hx g item v b x a (List.mem_cons_of_mem _ (List.mem_cons_of_mem _ hev))
            cases hr : raiseWidth (cw.map o.recorded) (o.column col).name (visualWidth f x) with
            | error p =>
              simp only [hr] at h
              cases h
              cases hq
              exact ⟨_, rfl, by simp only [hfm, hr], same _ _ rfl, hf2⟩
            | ok cw' =>
              have hmap : cw' = none ∧ cw = none ∨ ∃ m r, cw' = some m ∧ cw = some r := by
                cases cw with
                | none =>
                  rw [Option.map_none, raise_without_map] at hr
                  split at hr
                  · injection hr with hr; exact .inl ⟨hr.symm, rfl⟩
                  · cases hr
                | some r =>
                  rw [Option.map_some, raise_with_map] at hr
                  injection hr with hr
                  exact .inr ⟨_, r, hr.symm, rfl⟩
              rcases hmap with ⟨rfl, rfl⟩ | ⟨m, r, rfl, rfl⟩
              · simp only [hr] at h
                obtain ⟨fe, h1, h2, h3, h4⟩ := ih (i + 1) (acc ++ [x]) _ hlt h hq hf2 ha' hx' hg (by omega)
                refine ⟨fe, h1, ?_, h3, h4⟩
                simp only [hfm, hr]
                simpa using h2
              · simp only [hr] at h
                obtain ⟨fe, h1, h2, h3, h4⟩ := ih (i + 1) (acc ++ [x]) _ hlt h hq hf2 ha' hx' hg (by omega)
                refine ⟨fe, h1, ?_, ?_, h4⟩
                · simp only [hfm, hr]
                  simpa using h2
                · refine h3.trans ?_
                  simp only [Objects.mk.injEq, true_and, and_true]
                  funext r'
                  by_cases h : r = r'
                  · simp [h]
                  · simp [h]

theorem quiet_table {σ : Type} {G : Nat → Getter σ ι ν ε} {st st' : σ} {es : List (CallEvent ι ν ε)}
    (h : Quiet G st es st') : QuietTable G st es st' := by
  induction h with
  | nil st => exact .nil st
  | value g item o st st' es h ih => exact .value g item o o st st' es rfl ih
  | format g item v o st st' es h ih => exact .format g item v o o st st' es rfl ih

theorem quiet_exists {σ : Type} (G : Nat → Getter σ ι ν ε) (cw : Option Nat) (item : ι) (s : Slice) (i : Nat)
    (acc : List GoString) (o : Objects) (st : σ) (hi : i ≤ s.len) :
    ∃ es e o' st', Chats (formatItemFrom cw item s i acc o) es e o' ∧ Quiet G st es st' := by
  generalize hn : s.len - i = n
  induction n generalizing i acc o st with
  | zero =>
    rw [formatItemFrom, if_neg (by omega)]
    exact ⟨_, _, _, _, .ret _ _, .nil _⟩
  | succ n ih =>
    have hlt : i < s.len := by omega
    rw [formatItemFrom, if_pos hlt]
    cases hcol : o.element s.array (s.first + i) with
    | none => exact ⟨_, _, _, _, .panic _ _, .nil _⟩
    | some col =>
      cases hg : (o.column col).getter with
      | none => simp only [hg]; exact ⟨_, _, _, _, .panic _ _, .nil _⟩
      | some g =>
        simp only [hg]
        rcases hv : (G g).value item st with ⟨e | v, st1⟩
        · refine ⟨_, .returned (.error e), o, _, .value (replyOf ((G g).value item st).1) o (es := []) ?_,
            .value _ _ _ _ _ _ (.nil _)⟩
          simp only [hv, replyOf]
          exact .ret _ _
        · rcases hfm : (G g).format item v st1 with ⟨e | x, st2⟩
          · refine ⟨_, .returned (.error e), o, _, .value (replyOf ((G g).value item st).1) o (es :=
              [.format g item v o (replyOf ((G g).format item v ((G g).value item st).2).1) o]) ?_,
              .value _ _ _ _ _ _ (.format _ _ _ _ _ _ _ (.nil _))⟩
            simp only [hv, replyOf, hg, hfm]
            exact .format _ _ (.ret _ _)
          · have hrest : ∃ es e o' st', Chats (match o.raise cw (o.column col).name (o.answer i x) with
                | .error p => .panic (.onNil p) o
                | .ok o => formatItemFrom cw item s (i + 1) (acc ++ [x]) o) es e o' ∧ Quiet G st2 es st' := by
              cases o.raise cw (o.column col).name (o.answer i x) with
              | error p => exact ⟨_, _, _, _, .panic _ _, .nil _⟩
              | ok o1 => exact ih (i + 1) (acc ++ [x]) o1 st2 hlt (by omega)
            obtain ⟨es, e, o', st', h1, h2⟩ := hrest
            refine ⟨_, e, o', st', .value (replyOf ((G g).value item st).1) o (es :=
              .format g item v o (replyOf ((G g).format item v ((G g).value item st).2).1) o :: es) ?_,
              .value _ _ _ _ _ _ (.format _ _ _ _ _ _ _ (by simpa only [hv, hfm] using h2))⟩
            simp only [hv, replyOf, hg, hfm]
            exact .format _ _ h1

/-! ## Every user code has its conversation -/

/-- A method at work with this user code, after the calls `past`. -/
def playOut (u : UserCode ι ν ε) (past : List (CallEvent ι ν ε)) :
    Chat ι ν ε α → List (CallEvent ι ν ε) × Outcome α × Objects
  | .ret a o => ([], .returned a, o)
  | .panic why o => ([], .panicked why, o)
  | .unfinished o => ([], .unfinished, o)
  | .value g item o k =>
    let r := u.value past g item o
    let rest := playOut u (.value g item o r.1 r.2 :: past) (k r.1 r.2)
    (.value g item o r.1 r.2 :: rest.1, rest.2)
  | .format g item v o k =>
    let r := u.format past g item v o
    let rest := playOut u (.format g item v o r.1 r.2 :: past) (k r.1 r.2)
    (.format g item v o r.1 r.2 :: rest.1, rest.2)
  | .valueString g name item o k =>
    let r := u.valueString past g name item o
    let rest := playOut u (.valueString g name item o r.1 r.2 :: past) (k r.1 r.2)
    (.valueString g name item o r.1 r.2 :: rest.1, rest.2)
  | .align al text w o k =>
    let r := u.align past al text w o
    let rest := playOut u (.align al text w o r.1 r.2 :: past) (k r.1 r.2)
    (.align al text w o r.1 r.2 :: rest.1, rest.2)
  | .len o k =>
    let r := u.len past o
    let rest := playOut u (.len o r.1 r.2 :: past) (k r.1 r.2)
    (.len o r.1 r.2 :: rest.1, rest.2)
  | .get i o k =>
    let r := u.get past i o
    let rest := playOut u (.get i o r.1 r.2 :: past) (k r.1 r.2)
    (.get i o r.1 r.2 :: rest.1, rest.2)
  | .write text o k =>
    let r := u.write past text o
    let rest := playOut u (.write text o r.1 r.2 :: past) (k r.1 r.2)
    (.write text o r.1 r.2 :: rest.1, rest.2)

theorem playOut_chats (u : UserCode ι ν ε) (past : List (CallEvent ι ν ε)) (p : Chat ι ν ε α) :
    Chats p (playOut u past p).1 (playOut u past p).2.1 (playOut u past p).2.2 := by
  induction p generalizing past with
  | ret a o => exact .ret a o
  | panic why o => exact .panic why o
  | unfinished o => exact .unfinished o
  | value g item o k ih => exact .value _ _ (ih _ _ _)
  | format g item v o k ih => exact .format _ _ (ih _ _ _)
  | valueString g name item o k ih => exact .valueString _ _ (ih _ _ _)
  | align al text w o k ih => exact .align _ _ (ih _ _ _)
  | len o k ih => exact .len _ _ (ih _ _ _)
  | get i o k ih => exact .get _ _ (ih _ _ _)
  | write text o k ih => exact .write _ _ (ih _ _ _)

theorem playOut_told (u : UserCode ι ν ε) (past : List (CallEvent ι ν ε)) (p : Chat ι ν ε α) :
    Told u past (playOut u past p).1 := by
  induction p generalizing past with
  | ret a o => exact .nil _
  | panic why o => exact .nil _
  | unfinished o => exact .nil _
  | value g item o k ih => exact .value _ _ _ _ _ _ _ rfl (ih _ _ _)
  | format g item v o k ih => exact .format _ _ _ _ _ _ _ _ rfl (ih _ _ _)
  | valueString g name item o k ih => exact .valueString _ _ _ _ _ _ _ _ rfl (ih _ _ _)
  | align al text w o k ih => exact .align _ _ _ _ _ _ _ _ rfl (ih _ _ _)
  | len o k ih => exact .len _ _ _ _ _ rfl (ih _ _ _)
  | get i o k ih => exact .get _ _ _ _ _ _ rfl (ih _ _ _)
  | write text o k ih => exact .write _ _ _ _ _ _ rfl (ih _ _ _)

theorem playOut_unique (u : UserCode ι ν ε) {past : List (CallEvent ι ν ε)} {p : Chat ι ν ε α}
    {es : List (CallEvent ι ν ε)} {e : Outcome α} {o' : Objects} (h : Chats p es e o') (ht : Told u past es) :
    playOut u past p = (es, e, o') := by
  induction h generalizing past with
  | ret a o => rfl
  | panic why o => rfl
  | unfinished o => rfl
  | value r o' h ih => cases ht with | value _ _ _ _ _ _ _ hr ht => simp only [playOut, hr, ih ht]
  | format r o' h ih => cases ht with | format _ _ _ _ _ _ _ _ hr ht => simp only [playOut, hr, ih ht]
  | valueString r o' h ih => cases ht with | valueString _ _ _ _ _ _ _ _ hr ht => simp only [playOut, hr, ih ht]
  | align r o' h ih => cases ht with | align _ _ _ _ _ _ _ _ hr ht => simp only [playOut, hr, ih ht]
  | len r o' h ih => cases ht with | len _ _ _ _ _ hr ht => simp only [playOut, hr, ih ht]
  | get r o' h ih => cases ht with | get _ _ _ _ _ _ hr ht => simp only [playOut, hr, ih ht]
  | write r o' h ih => cases ht with | write _ _ _ _ _ _ hr ht => simp only [playOut, hr, ih ht]

theorem playOut_iff (u : UserCode ι ν ε) (past : List (CallEvent ι ν ε)) (p : Chat ι ν ε α)
    (es : List (CallEvent ι ν ε)) (e : Outcome α) (o' : Objects) :
    Chats p es e o' ∧ Told u past es ↔ (es, e, o') = playOut u past p := by
  constructor
  · intro h
    exact (playOut_unique u h.1 h.2).symm
  · intro h
    have h1 := playOut_chats u past p
    have h2 := playOut_told u past p
    rw [← h] at h1 h2
    exact ⟨h1, h2⟩

end GoTable
