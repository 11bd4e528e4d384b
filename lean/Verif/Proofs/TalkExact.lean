import Verif.Proofs.Talk
/-!
# The conversations of merges are exactly those described

Two runs that keep to a description either are the same or differ first in the answer to the same question. As a merge
can be given any answers, it can therefore have every run described.
-/

namespace GoTable
open Spec

variable {σ ι ν ε : Type} {α : Type}

/-- The same call, perhaps answered differently. -/
def SameQuestion : Event → Event → Prop
  | .len _, .len _ => True
  | .get i _, .get j _ => i = j
  | .write s _, .write t _ => s = t
  | _, _ => False

/-- The first difference is in the answer to the same question. -/
def Fork : List Event → List Event → Prop
  | x :: es, y :: es' => (x = y ∧ Fork es es') ∨ (x ≠ y ∧ SameQuestion x y)
  | _, _ => False

/-- The first difference, if there is one, is not of that kind. -/
def Along : List Event → List Event → Prop
  | x :: es, y :: es' => (x = y ∧ Along es es') ∨ ¬ SameQuestion x y
  | _, _ => True

theorem sameQuestion_refl (x : Event) : SameQuestion x x := by cases x <;> simp [SameQuestion]

theorem not_along_fork {es es' : List Event} (h : Along es es') (hf : Fork es es') : False := by
  induction es generalizing es' with
  | nil => cases es' <;> exact hf
  | cons x es ih =>
    cases es' with
    | nil => exact hf
    | cons y es' =>
      rcases h with ⟨rfl, h⟩ | h
      · rcases hf with ⟨_, hf⟩ | ⟨hf, _⟩
        · exact ih h hf
        · exact hf rfl
      · rcases hf with ⟨rfl, _⟩ | ⟨_, hf⟩
        · exact h (sameQuestion_refl _)
        · exact h hf

theorem fork_append {a a' : List Event} (h : Fork a a') (b b' : List Event) : Fork (a ++ b) (a' ++ b') := by
  induction a generalizing a' with
  | nil => cases a' <;> exact h.elim
  | cons x a ih =>
    cases a' with
    | nil => exact h.elim
    | cons y a' =>
      rcases h with ⟨rfl, h⟩ | h
      · exact .inl ⟨rfl, ih h⟩
      · exact .inr h

theorem fork_after (a : List Event) {b b' : List Event} (h : Fork b b') : Fork (a ++ b) (a ++ b') := by
  induction a with
  | nil => exact h
  | cons x a ih => exact .inl ⟨rfl, ih⟩

/-- A computation can be given recorded answers as long as it asks the recorded questions. -/
theorem talks_along (p : Talk α) (es : List Event) : ∃ es' e', Talks p es' e' ∧ Along es es' := by
  cases es with
  | nil =>
    obtain ⟨es', e', h, _⟩ := talks_exists p ⟨0, fun _ => []⟩ fun _ => false
    exact ⟨es', e', h, trivial⟩
  | cons x es =>
    induction p generalizing x es with
    | ret a => exact ⟨_, _, .ret a, trivial⟩
    | panic q => exact ⟨_, _, .panic q, trivial⟩
    | unfinished => exact ⟨_, _, .unfinished, trivial⟩
    | len k ih =>
      have key : ∀ n, ∃ es' e', Talks (k n) es' e' ∧ Along es es' := fun n => by
        cases es with
        | nil =>
          obtain ⟨es', e', h, _⟩ := talks_exists (k n) ⟨0, fun _ => []⟩ fun _ => false
          exact ⟨es', e', h, trivial⟩
        | cons y es => exact ih n y es
      cases x with
      | len n =>
        obtain ⟨es', e', h, ha⟩ := key n
        exact ⟨_, _, .len n h, .inl ⟨rfl, ha⟩⟩
      | get i row => obtain ⟨es', e', h, _⟩ := key 0; exact ⟨_, _, .len 0 h, .inr id⟩
      | write s b => obtain ⟨es', e', h, _⟩ := key 0; exact ⟨_, _, .len 0 h, .inr id⟩
    | get i k ih =>
      have key : ∀ n, ∃ es' e', Talks (k n) es' e' ∧ Along es es' := fun n => by
        cases es with
        | nil =>
          obtain ⟨es', e', h, _⟩ := talks_exists (k n) ⟨0, fun _ => []⟩ fun _ => false
          exact ⟨es', e', h, trivial⟩
        | cons y es => exact ih n y es
      cases x with
      | get j row =>
        by_cases hij : j = i
        · subst hij
          obtain ⟨es', e', h, ha⟩ := key row
          exact ⟨_, _, .get _ row h, .inl ⟨rfl, ha⟩⟩
        · obtain ⟨es', e', h, _⟩ := key []
          exact ⟨_, _, .get _ [] h, .inr hij⟩
      | len n => obtain ⟨es', e', h, _⟩ := key []; exact ⟨_, _, .get _ [] h, .inr id⟩
      | write s b => obtain ⟨es', e', h, _⟩ := key []; exact ⟨_, _, .get _ [] h, .inr id⟩
    | write s k ih =>
      have key : ∀ n, ∃ es' e', Talks (k n) es' e' ∧ Along es es' := fun n => by
        cases es with
        | nil =>
          obtain ⟨es', e', h, _⟩ := talks_exists (k n) ⟨0, fun _ => []⟩ fun _ => false
          exact ⟨es', e', h, trivial⟩
        | cons y es => exact ih n y es
      cases x with
      | write s' b =>
        by_cases hss : s' = s
        · subst hss
          obtain ⟨es', e', h, ha⟩ := key b
          exact ⟨_, _, .write _ b h, .inl ⟨rfl, ha⟩⟩
        · obtain ⟨es', e', h, _⟩ := key true
          exact ⟨_, _, .write _ true h, .inr hss⟩
      | len n => obtain ⟨es', e', h, _⟩ := key true; exact ⟨_, _, .write _ true h, .inr id⟩
      | get i row => obtain ⟨es', e', h, _⟩ := key true; exact ⟨_, _, .write _ true h, .inr id⟩

/-- What all runs keep to, and what leaves open answers only, is what can happen. -/
theorem talks_of_det {p : Talk α} {P : List Event → Ending α → Prop} (hf : ∀ es e, Talks p es e → P es e)
    (hd : ∀ es e es' e', P es e → P es' e' → (es = es' ∧ e = e') ∨ Fork es es') {es : List Event} {e : Ending α}
    (h : P es e) : Talks p es e := by
  obtain ⟨es', e', ht, ha⟩ := talks_along p es
  rcases hd _ _ _ _ h (hf _ _ ht) with ⟨rfl, rfl⟩ | hk
  · exact ht
  · exact (not_along_fork ha hk).elim

/-! ## Scripts -/

/-- The scripts ask the same as long as the answers are the same. -/
inductive Cohere : List (Event × Nat) → List (Event × Nat) → Prop
  | nil : Cohere [] []
  | cons {x y : Event} {m : Nat} {s s' : List (Event × Nat)} (hq : SameQuestion x y)
    (hx : ∀ t, x ≠ .write t true) (hy : ∀ t, y ≠ .write t true) (h : x = y → Cohere s s') :
    Cohere ((x, m) :: s) ((y, m) :: s')

theorem cohere_append {a a' b b' : List (Event × Nat)} (h : Cohere a a') (hb : a = a' → Cohere b b') :
    Cohere (a ++ b) (a' ++ b') := by
  induction h with
  | nil => exact hb rfl
  | cons hq hx hy _ ih => exact .cons hq hx hy fun hxy => ih hxy fun hs => hb (by rw [hxy, hs])

theorem cohere_flatMap {γ : Type} (l : List γ) (F F' : γ → List (Event × Nat)) (h : ∀ x ∈ l, Cohere (F x) (F' x)) :
    Cohere (l.flatMap F) (l.flatMap F') := by
  induction l with
  | nil => exact .nil
  | cons x l ih =>
    rw [List.flatMap_cons, List.flatMap_cons]
    exact cohere_append (h x (by simp)) fun _ => ih fun y hy => h y (by simp [hy])

theorem cohere_gets (l : List Nat) (m : Nat) (r r' : Nat → List GoString) :
    Cohere (l.map fun (k : Nat) => (Event.get k (r k), m)) (l.map fun (k : Nat) => (Event.get k (r' k), m)) := by
  induction l with
  | nil => exact .nil
  | cons k l ih => exact .cons rfl (by simp) (by simp) fun _ => ih

theorem gets_inj {l : List Nat} {m : Nat} {r r' : Nat → List GoString}
    (h : (l.map fun (k : Nat) => (Event.get k (r k), m)) = l.map fun (k : Nat) => (Event.get k (r' k), m)) :
    ∀ k ∈ l, r k = r' k := by
  intro k hk
  have := List.map_inj_left.mp h k hk
  simpa using this

theorem follows_nil {es : List Event} {e : Ending Unit} (h : Follows [] es e) : es = [] ∧ e = .returned () := by
  generalize hs : ([] : List (Event × Nat)) = s at h
  cases h with
  | all => subst hs; exact ⟨rfl, rfl⟩
  | write b => cases b <;> cases hs
  | short b => cases b <;> cases hs

theorem follows_cons {x : Event} {m : Nat} {s : List (Event × Nat)} {es : List Event} {e : Ending Unit}
    (h : Follows ((x, m) :: s) es e) :
    (Enough (x, m) ∧ ∃ es', es = x :: es' ∧ Follows s es' e) ∨
    (∃ text, x = .write text false ∧ es = [.write text true] ∧ e = .panicked .write) ∨
    (¬ Enough (x, m) ∧ es = [x] ∧ e = .panicked .index) := by
  generalize hs : (x, m) :: s = s' at h
  cases h with
  | all _ h =>
    subst hs
    exact .inl ⟨h _ (by simp), _, rfl, .all _ fun call hc => h call (by simp [hc])⟩
  | write b text c h =>
    cases b with
    | nil => cases hs; exact .inr (.inl ⟨text, rfl, rfl, rfl⟩)
    | cons y b =>
      cases hs
      exact .inl ⟨h _ (by simp), _, rfl, .write b text c fun call hc => h call (by simp [hc])⟩
  | short b i row need c h hsh =>
    cases b with
    | nil => cases hs; exact .inr (.inr ⟨fun hn => by have := enough_get.mp hn; omega, rfl, rfl⟩)
    | cons y b =>
      cases hs
      exact .inl ⟨h _ (by simp), _, rfl, .short b i row need c (fun call hc => h call (by simp [hc])) hsh⟩

/-- Following coherent scripts. -/
theorem follows_det {s s' : List (Event × Nat)} (hc : Cohere s s') {es es' : List Event} {e e' : Ending Unit}
    (h : Follows s es e) (h' : Follows s' es' e') : (es = es' ∧ e = e') ∨ Fork es es' := by
  induction hc generalizing es es' with
  | nil =>
    obtain ⟨rfl, rfl⟩ := follows_nil h
    obtain ⟨rfl, rfl⟩ := follows_nil h'
    exact .inl ⟨rfl, rfl⟩
  | @cons x y m s s' hq hx hy _ ih =>
    by_cases hxy : x = y
    · subst hxy
      rcases follows_cons h with ⟨h1, a, rfl, h2⟩ | ⟨text, rfl, rfl, rfl⟩ | ⟨h1, rfl, rfl⟩ <;>
      rcases follows_cons h' with ⟨h1', a', rfl, h2'⟩ | ⟨text', ht, rfl, rfl⟩ | ⟨h1', rfl, rfl⟩
      · rcases ih rfl h2 h2' with ⟨rfl, rfl⟩ | hf
        · exact .inl ⟨rfl, rfl⟩
        · exact .inr (.inl ⟨rfl, hf⟩)
      · subst ht; exact .inr (.inr ⟨by simp, rfl⟩)
      · exact absurd h1 h1'
      · exact .inr (.inr ⟨by simp, rfl⟩)
      · cases ht; exact .inl ⟨rfl, rfl⟩
      · exact absurd (enough_write _ _ _) h1'
      · exact absurd h1' h1
      · subst ht; exact absurd (enough_write _ _ _) h1
      · exact .inl ⟨rfl, rfl⟩
    · have first : ∀ {x : Event} {s : List (Event × Nat)} {es : List Event} {e : Ending Unit},
          Follows ((x, m) :: s) es e → ∃ x' a, es = x' :: a ∧ (x' = x ∨ ∃ t, x = .write t false ∧ x' = .write t true) := by
        intro x s es e h
        rcases follows_cons h with ⟨_, a, rfl, _⟩ | ⟨text, rfl, rfl, _⟩ | ⟨_, rfl, _⟩
        · exact ⟨_, _, rfl, .inl rfl⟩
        · exact ⟨_, _, rfl, .inr ⟨_, rfl, rfl⟩⟩
        · exact ⟨_, _, rfl, .inl rfl⟩
      have hw : ∀ t b, x = .write t b → False := by
        rintro t b rfl
        cases y <;> simp only [SameQuestion] at hq
        subst hq
        rename_i c _
        cases b <;> cases c <;> first | exact hxy rfl | exact hx _ rfl | exact hy _ rfl
      have hw' : ∀ t b, y = .write t b → False := by
        rintro t b rfl
        cases x <;> simp only [SameQuestion] at hq
        exact hw _ _ rfl
      obtain ⟨x', a, rfl, rfl | ⟨_, hx', _⟩⟩ := first h
      · obtain ⟨y', a', rfl, rfl | ⟨_, hy', _⟩⟩ := first h'
        · exact .inr (.inr ⟨hxy, hq⟩)
        · exact (hw' _ _ hy').elim
      · exact (hw _ _ hx').elim

/-! ## Printing -/

theorem itemText_same (f : Flags) (cols : List (Column σ ι ν ε)) (w w' : Nat → UInt16) (row : List GoString)
    (h : ∀ c, c < cols.length → w c = w' c) : itemText f cols w row = itemText f cols w' row := by
  unfold itemText
  congr 1
  apply List.ext_getElem?
  intro c
  rw [List.getElem?_mapIdx, List.getElem?_mapIdx]
  cases hz : (cols.zip row)[c]? with
  | none => rfl
  | some p =>
    have : c < (cols.zip row).length := (List.getElem?_eq_some_iff.mp hz).1
    rw [List.length_zip] at this
    simp [h c (by omega)]

theorem lineText_same (f : Flags) (cols : List (Column σ ι ν ε)) (w w' : Nat → Nat → UInt16) (sep : GoString)
    (rows rows' : Nat → List GoString) (g : Nat) (shown : List Nat) (hl : shown.length ≤ g)
    (hw : ∀ j c, j < g → c < cols.length → w j c = w' j c) (hr : ∀ k ∈ shown, rows k = rows' k) :
    lineText f cols w sep rows g shown = lineText f cols w' sep rows' g shown := by
  unfold lineText
  congr 2
  apply List.ext_getElem?
  intro j
  rw [List.getElem?_mapIdx, List.getElem?_mapIdx]
  cases hz : shown[j]? with
  | none => rfl
  | some k =>
    have hj : j < shown.length := (List.getElem?_eq_some_iff.mp hz).1
    have hk : k ∈ shown := List.mem_of_getElem? hz
    simp [hr k hk, itemText_same f cols (w j) (w' j) (rows' k) fun c hc => hw j c (by omega) hc]

/-- Printing is determined by the answers and by the widths of the groups and columns there are. -/
theorem script_det (f : Flags) (cols : List (Column σ ι ν ε)) (w w' : Nat → Nat → UInt16) (sep : GoString) (g : Nat)
    (onLine : Nat → Nat → List Nat) (hl : ∀ n i, (onLine n i).length ≤ g)
    (hw : ∀ j c, j < g → c < cols.length → w j c = w' j c)
    {n n' : Int} {rows rows' : Nat → List GoString} {es es' : List Event} {e e' : Ending Unit}
    (h : Follows (script f cols w sep g n rows (onLine n.toNat)) es e)
    (h' : Follows (script f cols w' sep g n' rows' (onLine n'.toNat)) es' e') :
    (es = es' ∧ e = e') ∨ Fork es es' := by
  refine follows_det ?_ h h'
  refine .cons trivial (by simp) (by simp) fun hn => ?_
  cases hn
  refine cohere_flatMap _ _ _ fun i _ => ?_
  refine cohere_append (cohere_gets _ _ _ _) fun hr => ?_
  rw [lineText_same f cols w w' sep rows rows' g (onLine n.toNat i) (hl _ _) hw (gets_inj hr)]
  exact .cons rfl (by simp) (by simp) fun _ => .nil

theorem length_onLineH (n g i : Nat) : (onLineH n g i).length ≤ g := by
  have := List.length_filter_le (fun k => decide (k < n)) ((List.range g).map fun j => i * g + j)
  simpa [onLineH] using this

theorem length_onLineV (n g l i : Nat) : (onLineV n g l i).length ≤ g := by
  have := List.length_filter_le (fun k => decide (k < n)) ((List.range g).map fun j => j * l + i)
  simpa [onLineV] using this

/-! ## Searching -/

theorem flatMap_inj {γ δ : Type} {l : List γ} {F F' : γ → List δ} (hl : ∀ x ∈ l, (F x).length = (F' x).length)
    (h : l.flatMap F = l.flatMap F') : ∀ x ∈ l, F x = F' x := by
  induction l with
  | nil => simp
  | cons x l ih =>
    rw [List.flatMap_cons, List.flatMap_cons] at h
    obtain ⟨h1, h2⟩ := List.append_inj h (hl x (by simp))
    intro y hy
    rcases List.mem_cons.mp hy with rfl | hy
    · exact h1
    · exact ih (fun z hz => hl z (by simp [hz])) h2 y hy

theorem map_fst_measuring (cols g : Nat) (n : Int) (down : Nat → List Nat) (ans : Nat → Nat → Nat → List GoString) :
    (measuring cols g n down ans).map Prod.fst = .len n :: (List.range g).flatMap fun j =>
      (List.range cols).flatMap fun c => (down j).map fun (k : Nat) => .get k (ans j c k) := by
  simp [measuring, List.map_flatMap, Function.comp_def]

theorem measuring_inj {cols g : Nat} {n : Int} {down : Nat → List Nat} {ans ans' : Nat → Nat → Nat → List GoString}
    (h : (measuring cols g n down ans).map Prod.fst = (measuring cols g n down ans').map Prod.fst) :
    ∀ j c, j < g → c < cols → ∀ k ∈ down j, ans j c k = ans' j c k := by
  rw [map_fst_measuring, map_fst_measuring] at h
  intro j c hj hc k hk
  have h1 := flatMap_inj (by simp) (List.cons.inj h).2 j (by simpa using hj)
  have h2 := flatMap_inj (by simp) h1 c (by simpa using hc)
  have h3 := List.map_inj_left.mp h2 k hk
  simpa using h3

theorem measured_unique {vw : GoString → UInt16} {cols g : Nat} {down : Nat → List Nat}
    {ans ans' : Nat → Nat → Nat → List GoString} {w w' : Nat → Nat → UInt16}
    (ha : ∀ j c, j < g → c < cols → ∀ k ∈ down j, ans j c k = ans' j c k) (h : Measured vw cols g down ans w)
    (h' : Measured vw cols g down ans' w') : ∀ j c, j < g → c < cols → w j c = w' j c := by
  have le : ∀ {ans ans' : Nat → Nat → Nat → List GoString} {w w' : Nat → Nat → UInt16},
      (∀ j c, j < g → c < cols → ∀ k ∈ down j, ans j c k = ans' j c k) → Measured vw cols g down ans w →
      Measured vw cols g down ans' w' → ∀ j c, j < g → c < cols → w j c ≤ w' j c := by
    intro ans ans' w w' ha h h' j c hj hc
    rcases (h j c hj hc).2 with h0 | ⟨k, hk, x, hx, hv⟩
    · rw [h0]; exact UInt16.le_iff_toNat_le.mpr (Nat.zero_le _)
    · obtain ⟨x', hx', hv'⟩ := (h' j c hj hc).1 k hk
      rw [← ha j c hj hc k hk, hx] at hx'
      cases hx'
      rw [← hv]; exact hv'
  intro j c hj hc
  have h1 := le ha h h' j c hj hc
  have h2 := le (fun j c hj hc k hk => (ha j c hj hc k hk).symm) h' h j c hj hc
  rw [UInt16.le_iff_toNat_le] at h1 h2
  exact UInt16.toNat_inj.mp (by omega)

theorem measured_enough {vw : GoString → UInt16} {cols g : Nat} {n : Int} {down : Nat → List Nat}
    {ans : Nat → Nat → Nat → List GoString} {w : Nat → Nat → UInt16} (h : Measured vw cols g down ans w) :
    ∀ call ∈ measuring cols g n down ans, Enough call := by
  intro call hc
  rcases List.mem_cons.mp hc with rfl | hc
  · exact enough_len _ _
  · obtain ⟨j, hj, hc⟩ := List.mem_flatMap.mp hc
    obtain ⟨c, hcc, hc⟩ := List.mem_flatMap.mp hc
    obtain ⟨k, hk, rfl⟩ := List.mem_map.mp hc
    obtain ⟨x, hx, _⟩ := (h j c (by simpa using hj) (by simpa using hcc)).1 k hk
    exact enough_get.mpr (List.getElem?_eq_some_iff.mp hx).1

theorem cohere_measuring (cols g : Nat) (n : Int) (down : Nat → List Nat) (ans ans' : Nat → Nat → Nat → List GoString) :
    Cohere (measuring cols g n down ans) (measuring cols g n down ans') :=
  .cons trivial (by simp) (by simp) fun _ => cohere_flatMap _ _ _ fun _ _ => cohere_flatMap _ _ _ fun _ _ =>
    cohere_gets _ _ _ _

/-- The same ending, as far as the widths of the groups and columns there are matter. -/
def SameEnding (cols : Nat) :
    Ending (Nat × (Nat → Nat → UInt16)) → Ending (Nat × (Nat → Nat → UInt16)) → Prop
  | .returned (g, w), .returned (g', w') => g = g' ∧ ∀ j c, j < g → c < cols → w j c = w' j c
  | .panicked p, .panicked p' => p = p'
  | .unfinished, .unfinished => True
  | _, _ => False

/-- How a round begins: with the length the list gives. -/
theorem fork_len {n n' : Int} (h : n ≠ n') (a a' : List Event) : Fork (.len n :: a) (.len n' :: a') :=
  .inr ⟨by simpa using h, trivial⟩

/-- The search is determined by the answers. -/
theorem searches_det {vw : GoString → UInt16} {cols sepLen maxWidth : Nat} {verdict : Int → Nat → Verdict}
    {down : Nat → Nat → Nat → List Nat} {fuel g : Nat} {w w' : Nat → Nat → UInt16} {es es' : List Event}
    {e e' : Ending (Nat × (Nat → Nat → UInt16))}
    (hw : ∀ j c, j < g → c < cols → w j c = w' j c)
    (h : Searches vw cols sepLen maxWidth verdict down fuel g w es e)
    (h' : Searches vw cols sepLen maxWidth verdict down fuel g w' es' e') :
    (es = es' ∧ SameEnding cols e e') ∨ Fork es es' := by
  have short_first : ∀ {g n ans es}, Follows (measuring cols (g + 1) n (down n.toNat (g + 1)) ans) es (.panicked .index) →
      ∃ a, es = .len n :: a := fun h => by
    obtain ⟨a, ha, _⟩ := follows_head h
    exact ⟨a, ha⟩
  induction h generalizing w' es' with
  | unfinished g w => cases h'; exact .inl ⟨rfl, trivial⟩
  | givesUp fuel g w n hv =>
    cases h' with
    | givesUp _ _ _ n' hv' =>
      by_cases hn : n = n'
      · subst hn; exact .inl ⟨rfl, rfl, hw⟩
      · exact .inr (fork_len hn _ _)
    | crashes _ _ _ n' hv' =>
      by_cases hn : n = n'
      · subst hn; rw [hv] at hv'; cases hv'
      · exact .inr (fork_len hn _ _)
    | short _ _ _ n' ans' _ hv' hs' =>
      obtain ⟨a, rfl⟩ := short_first hs'
      by_cases hn : n = n'
      · subst hn; rw [hv] at hv'; cases hv'
      · exact .inr (fork_len hn _ _)
    | tooWide _ _ _ n' ans' _ hv' =>
      by_cases hn : n = n'
      · subst hn; rw [hv] at hv'; cases hv'
      · exact .inr (fork_len hn _ _)
    | fits _ _ _ n' ans' _ _ _ hv' =>
      by_cases hn : n = n'
      · subst hn; rw [hv] at hv'; cases hv'
      · exact .inr (fork_len hn _ _)
  | crashes fuel g w n hv =>
    cases h' with
    | givesUp _ _ _ n' hv' =>
      by_cases hn : n = n'
      · subst hn; rw [hv] at hv'; cases hv'
      · exact .inr (fork_len hn _ _)
    | crashes _ _ _ n' hv' =>
      by_cases hn : n = n'
      · subst hn; exact .inl ⟨rfl, rfl⟩
      · exact .inr (fork_len hn _ _)
    | short _ _ _ n' ans' _ hv' hs' =>
      obtain ⟨a, rfl⟩ := short_first hs'
      by_cases hn : n = n'
      · subst hn; rw [hv] at hv'; cases hv'
      · exact .inr (fork_len hn _ _)
    | tooWide _ _ _ n' ans' _ hv' =>
      by_cases hn : n = n'
      · subst hn; rw [hv] at hv'; cases hv'
      · exact .inr (fork_len hn _ _)
    | fits _ _ _ n' ans' _ _ _ hv' =>
      by_cases hn : n = n'
      · subst hn; rw [hv] at hv'; cases hv'
      · exact .inr (fork_len hn _ _)
  | short fuel g w n ans es hv hs =>
    cases h' with
    | givesUp _ _ _ n' hv' =>
      obtain ⟨a, rfl⟩ := short_first hs
      by_cases hn : n = n'
      · subst hn; rw [hv] at hv'; cases hv'
      · exact .inr (fork_len hn _ _)
    | crashes _ _ _ n' hv' =>
      obtain ⟨a, rfl⟩ := short_first hs
      by_cases hn : n = n'
      · subst hn; rw [hv] at hv'; cases hv'
      · exact .inr (fork_len hn _ _)
    | short _ _ _ n' ans' _ hv' hs' =>
      by_cases hn : n = n'
      · subst hn
        rcases follows_det (cohere_measuring _ _ _ _ _ _) hs hs' with ⟨h1, _⟩ | h1
        · exact .inl ⟨h1, rfl⟩
        · exact .inr h1
      · obtain ⟨a, rfl⟩ := short_first hs
        obtain ⟨a, rfl⟩ := short_first hs'
        exact .inr (fork_len hn _ _)
    | tooWide _ _ _ n' ans' _ hv' hm' =>
      by_cases hn : n = n'
      · subst hn
        rcases follows_det (cohere_measuring _ _ _ _ _ _) hs (.all _ (measured_enough hm')) with ⟨_, h1⟩ | h1
        · cases h1
        · exact .inr h1
      · obtain ⟨a, rfl⟩ := short_first hs
        exact .inr (fork_len hn _ _)
    | fits _ _ _ n' ans' _ b _ hv' hm' =>
      by_cases hn : n = n'
      · subst hn
        rcases follows_det (cohere_measuring _ _ _ _ _ _) hs (.all _ (measured_enough hm')) with ⟨_, h1⟩ | h1
        · cases h1
        · have := fork_append h1 [] b
          rw [List.append_nil] at this
          exact .inr this
      · obtain ⟨a, rfl⟩ := short_first hs
        exact .inr (fork_len hn _ _)
  | tooWide fuel g w n ans w1 hv hm hwide =>
    cases h' with
    | givesUp _ _ _ n' hv' =>
      by_cases hn : n = n'
      · subst hn; rw [hv] at hv'; cases hv'
      · exact .inr (fork_len hn _ _)
    | crashes _ _ _ n' hv' =>
      by_cases hn : n = n'
      · subst hn; rw [hv] at hv'; cases hv'
      · exact .inr (fork_len hn _ _)
    | short _ _ _ n' ans' _ hv' hs' =>
      by_cases hn : n = n'
      · subst hn
        rcases follows_det (cohere_measuring _ _ _ _ _ _) (.all _ (measured_enough hm)) hs' with ⟨_, h1⟩ | h1
        · cases h1
        · exact .inr h1
      · obtain ⟨a, rfl⟩ := short_first hs'
        exact .inr (fork_len hn _ _)
    | tooWide _ _ _ n' ans' _ hv' hm' =>
      by_cases hn : n = n'
      · subst hn
        rcases follows_det (cohere_measuring _ _ _ _ _ _) (.all _ (measured_enough hm))
          (.all _ (measured_enough hm')) with ⟨h1, _⟩ | h1
        · exact .inl ⟨h1, rfl, hw⟩
        · exact .inr h1
      · exact .inr (fork_len hn _ _)
    | fits _ _ _ n' ans' w2 b _ hv' hm' hfit =>
      by_cases hn : n = n'
      · subst hn
        rcases follows_det (cohere_measuring _ _ _ _ _ _) (.all _ (measured_enough hm))
          (.all _ (measured_enough hm')) with ⟨h1, _⟩ | h1
        · rw [fullWidth_congr (measured_unique (measuring_inj h1) hm hm')] at hwide
          omega
        · have := fork_append h1 [] b
          rw [List.append_nil] at this
          exact .inr this
      · exact .inr (fork_len hn _ _)
  | fits fuel g w n ans w1 es e hv hm hfit h ih =>
    cases h' with
    | givesUp _ _ _ n' hv' =>
      by_cases hn : n = n'
      · subst hn; rw [hv] at hv'; cases hv'
      · exact .inr (fork_len hn _ _)
    | crashes _ _ _ n' hv' =>
      by_cases hn : n = n'
      · subst hn; rw [hv] at hv'; cases hv'
      · exact .inr (fork_len hn _ _)
    | short _ _ _ n' ans' _ hv' hs' =>
      by_cases hn : n = n'
      · subst hn
        rcases follows_det (cohere_measuring _ _ _ _ _ _) (.all _ (measured_enough hm)) hs' with ⟨_, h1⟩ | h1
        · cases h1
        · have := fork_append h1 es []
          rw [List.append_nil] at this
          exact .inr this
      · obtain ⟨a, rfl⟩ := short_first hs'
        exact .inr (fork_len hn _ _)
    | tooWide _ _ _ n' ans' _ hv' hm' hwide =>
      by_cases hn : n = n'
      · subst hn
        rcases follows_det (cohere_measuring _ _ _ _ _ _) (.all _ (measured_enough hm))
          (.all _ (measured_enough hm')) with ⟨h1, _⟩ | h1
        · rw [fullWidth_congr (measured_unique (measuring_inj h1) hm hm')] at hfit
          omega
        · have := fork_append h1 es []
          rw [List.append_nil] at this
          exact .inr this
      · exact .inr (fork_len hn _ _)
    | fits _ _ _ n' ans' w2 b _ hv' hm' hfit' h'' =>
      by_cases hn : n = n'
      · subst hn
        rcases follows_det (cohere_measuring _ _ _ _ _ _) (.all _ (measured_enough hm))
          (.all _ (measured_enough hm')) with ⟨h1, _⟩ | h1
        · rw [h1]
          rcases ih (measured_unique (measuring_inj h1) hm hm') h'' with ⟨rfl, h2⟩ | h2
          · exact .inl ⟨rfl, h2⟩
          · exact .inr (fork_after _ h2)
        · exact .inr (fork_append h1 _ _)
      · exact .inr (fork_len hn _ _)

/-- A merge with compaction is determined by the answers. -/
theorem conversation_det {f : Flags} {t : Table σ ι ν ε} {sep : GoString} {onLine : Nat → Nat → Nat → List Nat}
    (hl : ∀ n g i, (onLine n g i).length ≤ g) {search : List Event → Ending (Nat × (Nat → Nat → UInt16)) → Prop}
    (hd : ∀ es e es' e', search es e → search es' e' → (es = es' ∧ SameEnding t.columns.length e e') ∨ Fork es es')
    {es es' : List Event} {e e' : Ending Unit} (h : Conversation f t sep onLine search es e)
    (h' : Conversation f t sep onLine search es' e') : (es = es' ∧ e = e') ∨ Fork es es' := by
  cases h with
  | prints s es e g w n rows hs h =>
    cases h' with
    | prints s' es' e' g' w' n' rows' hs' h' =>
      rcases hd _ _ _ _ hs hs' with ⟨rfl, rfl, h2⟩ | h1
      · rcases script_det f t.columns w w' sep g (fun n => onLine n g) (fun n i => hl n g i) h2 h h' with
          ⟨rfl, rfl⟩ | h3
        · exact .inl ⟨rfl, rfl⟩
        · exact .inr (fork_after _ h3)
      · exact .inr (fork_append h1 _ _)
    | panics s' p hs' =>
      rcases hd _ _ _ _ hs hs' with ⟨_, h2⟩ | h1
      · exact h2.elim
      · have := fork_append h1 es []; rw [List.append_nil] at this; exact .inr this
    | unfinished s' hs' =>
      rcases hd _ _ _ _ hs hs' with ⟨_, h2⟩ | h1
      · exact h2.elim
      · have := fork_append h1 es []; rw [List.append_nil] at this; exact .inr this
  | panics s p hs =>
    cases h' with
    | prints s' es' e' g' w' n' rows' hs' h' =>
      rcases hd _ _ _ _ hs hs' with ⟨_, h2⟩ | h1
      · exact h2.elim
      · have := fork_append h1 [] es'; rw [List.append_nil] at this; exact .inr this
    | panics s' p hs' =>
      rcases hd _ _ _ _ hs hs' with ⟨rfl, rfl⟩ | h1
      · exact .inl ⟨rfl, rfl⟩
      · exact .inr h1
    | unfinished s' hs' =>
      rcases hd _ _ _ _ hs hs' with ⟨_, h2⟩ | h1
      · exact h2.elim
      · exact .inr h1
  | unfinished s hs =>
    cases h' with
    | prints s' es' e' g' w' n' rows' hs' h' =>
      rcases hd _ _ _ _ hs hs' with ⟨_, h2⟩ | h1
      · exact h2.elim
      · have := fork_append h1 [] es'; rw [List.append_nil] at this; exact .inr this
    | panics s' p hs' =>
      rcases hd _ _ _ _ hs hs' with ⟨_, h2⟩ | h1
      · exact h2.elim
      · exact .inr h1
    | unfinished s' hs' =>
      rcases hd _ _ _ _ hs hs' with ⟨rfl, _⟩ | h1
      · exact .inl ⟨rfl, rfl⟩
      · exact .inr h1

end GoTable
