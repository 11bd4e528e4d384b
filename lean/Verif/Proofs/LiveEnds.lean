import Verif.Proofs.LiveQuiet
/-!
# Proofs: how merges end whose user code uses the table
-/

namespace GoTable
open Spec

variable {ι ν ε α β γ : Type}

/-! ## Trouble ends a merge -/

/-- Runs stop at the first trouble. -/
def EndsInTrouble (R : Run ι ν ε α) : Prop := ∀ o es e o', R o es e o' → StopsAtTrouble es e

theorem trouble_nil {e : Outcome α} (h1 : e ≠ .panicked .passedOn) (h2 : e ≠ .panicked (.run .write)) :
    StopsAtTrouble ([] : List (CallEvent ι ν ε)) e :=
  .inl ⟨by simp, h1, h2⟩

theorem trouble_one {ev : CallEvent ι ν ε} {e : Outcome α} (h : trouble ev = none) (h1 : e ≠ .panicked .passedOn)
    (h2 : e ≠ .panicked (.run .write)) : StopsAtTrouble [ev] e :=
  .inl ⟨by simpa using h, h1, h2⟩

theorem trouble_here {ev : CallEvent ι ν ε} {e : Outcome α} {why : Fault} (h : trouble ev = some why)
    (he : e = .panicked why) : StopsAtTrouble [ev] e :=
  .inr ⟨[], ev, why, rfl, by simp, h, he⟩

theorem trouble_append {es1 es2 : List (CallEvent ι ν ε)} {e : Outcome α} (h1 : ∀ ev ∈ es1, trouble ev = none)
    (h2 : StopsAtTrouble es2 e) : StopsAtTrouble (es1 ++ es2) e := by
  rcases h2 with ⟨h2, h3, h4⟩ | ⟨es, ev, why, rfl, h3, h4, h5⟩
  · refine .inl ⟨fun ev hev => ?_, h3, h4⟩
    rcases List.mem_append.mp hev with h | h
    · exact h1 _ h
    · exact h2 _ h
  · refine .inr ⟨es1 ++ es, ev, why, by rw [List.append_assoc], fun ev hev => ?_, h4, h5⟩
    rcases List.mem_append.mp hev with h | h
    · exact h1 _ h
    · exact h3 _ h

theorem trouble_map {es : List (CallEvent ι ν ε)} {e : Outcome α} (φ : α → β) (h : StopsAtTrouble es e) :
    StopsAtTrouble es (e.map φ) := by
  rcases h with ⟨h1, h2, h3⟩ | ⟨es1, ev, why, rfl, h3, h4, rfl⟩
  · refine .inl ⟨h1, ?_, ?_⟩ <;> cases e <;> simp_all [Outcome.map]
  · exact .inr ⟨es1, ev, why, rfl, h3, h4, rfl⟩

theorem trouble_cut {es : List (CallEvent ι ν ε)} {e : Outcome α} {e' : Outcome β} (hc : BreaksOff e e')
    (h : StopsAtTrouble es e) : StopsAtTrouble es e' := by
  cases hc with
  | panicked why =>
    rcases h with ⟨h1, h2, h3⟩ | ⟨es1, ev, why, rfl, h3, h4, h5⟩
    · exact .inl ⟨h1, fun h => h2 (by cases h; rfl), fun h => h3 (by cases h; rfl)⟩
    · cases h5
      exact .inr ⟨es1, ev, _, rfl, h3, h4, rfl⟩
  | unfinished =>
    rcases h with ⟨h1, h2, h3⟩ | ⟨es1, ev, why, rfl, h3, h4, h5⟩
    · exact .inl ⟨h1, nofun, nofun⟩
    · cases h5

/-- A run that returned had no trouble. -/
theorem trouble_returned {es : List (CallEvent ι ν ε)} {a : α} (h : StopsAtTrouble es (.returned a)) :
    ∀ ev ∈ es, trouble ev = none := by
  rcases h with h | ⟨_, _, _, _, _, _, h⟩
  · exact h.1
  · cases h

theorem trouble_then {R : Run ι ν ε α} {S : α → Run ι ν ε β} (hR : EndsInTrouble R) (hS : ∀ a, EndsInTrouble (S a)) :
    EndsInTrouble (Then R S) := by
  intro o es e o' h
  cases h with
  | goesOn a _ o1 _ es1 es2 _ h hs => exact trouble_append (trouble_returned (hR _ _ _ _ h)) (hS _ _ _ _ _ hs)
  | cut _ _ _ _ _ h hc => exact trouble_cut hc (hR _ _ _ _ h)

theorem trouble_each {R : γ → Run ι ν ε α} (hR : ∀ x, EndsInTrouble (R x)) (l : List γ) : EndsInTrouble (Each R l) := by
  intro o es e o' h
  induction h with
  | nil => exact trouble_nil nofun nofun
  | cons x xs a o o1 o2 es1 es2 e h hs ih =>
    exact trouble_append (trouble_returned (hR _ _ _ _ _ h)) (trouble_map _ ih)
  | cut _ _ _ _ _ _ _ h hc => exact trouble_cut hc (hR _ _ _ _ _ h)

/-- The widths do not panic in a way that looks like trouble. -/
def NoTrouble (W : Objects → Nat → Except Fault UInt16) : Prop :=
  ∀ o c why, W o c = .error why → why ≠ .passedOn ∧ why ≠ .run .write

theorem noTrouble_widthIn (t cols : Nat) (found : Option (List UInt16)) (j : Nat) :
    NoTrouble (widthIn t cols found j) := by
  intro o c why h
  unfold widthIn at h
  cases found with
  | none =>
    simp only [widthNow] at h
    split at h
    · cases h; exact ⟨nofun, nofun⟩
    · split at h
      · split at h
        · cases h; exact ⟨nofun, nofun⟩
        · cases h
      · cases h; exact ⟨nofun, nofun⟩
  | some ws =>
    simp only [widthFound] at h
    split at h
    · cases h; exact ⟨nofun, nofun⟩
    · cases h

theorem trouble_makesCell (cols : Nat) (W : Objects → Nat → Except Fault UInt16) (hW : NoTrouble W)
    (s row : Slice) (c : Nat) : EndsInTrouble (MakesCell (ι := ι) (ν := ν) (ε := ε) cols W s row c) := by
  intro o es e o' h
  cases h with
  | nilColumn => exact trouble_nil nofun nofun
  | short => exact trouble_nil nofun nofun
  | noWidth col why h hr hw =>
    exact trouble_nil (fun h => (hW _ _ _ hw).1 (by cases h; rfl)) (fun h => (hW _ _ _ hw).2 (by cases h; rfl))
  | left => exact trouble_nil nofun nofun
  | leftNoRoom => exact trouble_nil nofun nofun
  | aligned => exact trouble_one rfl nofun nofun
  | alignedNoRoom => exact trouble_one rfl nofun nofun
  | alignPanics => exact trouble_here rfl rfl

theorem trouble_makesItem (t cols : Nat) (W : Objects → Nat → Except Fault UInt16) (hW : NoTrouble W)
    (k : Nat) : EndsInTrouble (MakesItem (ι := ι) (ν := ν) (ε := ε) t cols W k) := by
  intro o es e o' h
  cases h with
  | panics => exact trouble_here rfl rfl
  | nilSpec => exact trouble_one rfl nofun nofun
  | made row sp _ o1 _ es e h hs =>
    exact trouble_append (es1 := [_]) (by simp [trouble])
      (trouble_map _ (trouble_each (fun c => trouble_makesCell cols W hW _ _ c) _ _ _ _ _ hs))

theorem trouble_writesLine (t cols : Nat) (W : Nat → Objects → Nat → Except Fault UInt16)
    (hW : ∀ j, NoTrouble (W j)) (sep : GoString) (g : Nat) (shown : List Nat) :
    EndsInTrouble (WritesLine (ι := ι) (ν := ν) (ε := ε) t cols W sep g shown) := by
  intro o es e o' h
  cases h with
  | cut _ _ _ _ _ h hc => exact trouble_cut hc (trouble_each (fun p => trouble_makesItem t cols _ (hW _) _) _ _ _ _ _ h)
  | writes texts reply _ o1 _ es h =>
    refine trouble_append (trouble_returned (trouble_each (fun p => trouble_makesItem t cols _ (hW _) _) _ _ _ _ _ h)) ?_
    cases reply with
    | none => exact trouble_here rfl rfl
    | some b =>
      cases b with
      | true => exact trouble_here rfl rfl
      | false => exact trouble_one rfl nofun nofun

theorem trouble_prints (t cols : Nat) (W : Nat → Objects → Nat → Except Fault UInt16)
    (hW : ∀ j, NoTrouble (W j)) (sep : GoString) (g : Nat) (onLine : Nat → Nat → Nat → List Nat) :
    EndsInTrouble (Prints (ι := ι) (ν := ν) (ε := ε) t cols W sep g onLine) := by
  intro o es e o' h
  cases h with
  | panics => exact trouble_here rfl rfl
  | lines n _ o1 _ es e h =>
    exact trouble_append (es1 := [_]) (by simp [trouble])
      (trouble_map _ (trouble_each (fun i => trouble_writesLine t cols W hW sep g _) _ _ _ _ _ h))

theorem trouble_readsCell (c k : Nat) : EndsInTrouble (ReadsCell (ι := ι) (ν := ν) (ε := ε) c k) := by
  intro o es e o' h
  cases h with
  | panics => exact trouble_here rfl rfl
  | short => exact trouble_one rfl nofun nofun
  | reads => exact trouble_one rfl nofun nofun

theorem trouble_measures (t : Nat) (verdict : Int → Nat → Verdict)
    (down : Nat → Nat → Nat → List Nat) (g : Nat) :
    EndsInTrouble (MeasuresGroups (ι := ι) (ν := ν) (ε := ε) t verdict down g) := by
  intro o es e o' h
  cases h with
  | panics => exact trouble_here rfl rfl
  | nilSpec => exact trouble_one rfl nofun nofun
  | crashes => exact trouble_one rfl nofun nofun
  | givesUp => exact trouble_one rfl nofun nofun
  | measures n sp _ o1 _ es e h hv hs =>
    exact trouble_append (es1 := [_]) (by simp [trouble])
      (trouble_map _ (trouble_each (fun _ => trouble_each (fun _ => trouble_each (fun _ => trouble_readsCell _ _) _) _)
        _ _ _ _ _ hs))

theorem trouble_seeks (t cols sepLen maxWidth : Nat) (verdict : Int → Nat → Verdict)
    (down : Nat → Nat → Nat → List Nat) (fuel g : Nat) (w : Option (List UInt16)) :
    EndsInTrouble (Seeks (ι := ι) (ν := ν) (ε := ε) t cols sepLen maxWidth verdict down fuel g w) := by
  intro o es e o' h
  induction h with
  | unfinished => exact trouble_nil nofun nofun
  | cut _ _ _ _ _ _ _ _ h hc => exact trouble_cut hc (trouble_measures t verdict down _ _ _ _ _ h)
  | givesUp _ _ _ _ _ _ h =>
    exact .inl ⟨trouble_returned (trouble_measures t verdict down _ _ _ _ _ h), nofun, nofun⟩
  | tooWide _ _ _ _ _ _ _ h _ =>
    exact .inl ⟨trouble_returned (trouble_measures t verdict down _ _ _ _ _ h), nofun, nofun⟩
  | fits _ _ _ _ _ _ _ _ _ _ h _ _ ih =>
    exact trouble_append (trouble_returned (trouble_measures t verdict down _ _ _ _ _ h)) ih

theorem trouble_merges (t : Nat) (arg : Int) (sep : GoString) (verdict : Int → Nat → Verdict)
    (down : Nat → Nat → Nat → List Nat) (onLine : Nat → Nat → Nat → List Nat) (compact : Bool) (fuel : Nat) :
    EndsInTrouble (Merges (ι := ι) (ν := ν) (ε := ε) t arg sep verdict down onLine compact fuel) := by
  intro o es e o' h
  cases h with
  | nilSpec => exact trouble_nil nofun nofun
  | nilColumn => exact trouble_nil nofun nofun
  | zero => exact trouble_nil nofun nofun
  | plain _ _ _ _ _ _ _ _ _ hr =>
    exact trouble_prints _ _ _ (noTrouble_widthIn _ _ _) _ _ _ _ _ _ _ hr
  | compact _ _ _ _ _ _ _ _ _ hr =>
    exact trouble_then (trouble_seeks _ _ _ _ _ _ _ _ _)
      (fun r => trouble_prints _ _ _ (noTrouble_widthIn _ _ r.2) _ _ _) _ _ _ _ hr

/-! ## Items asked for -/

/-- No length is asked for, and all items asked for are below `n`. -/
def Below (n : Int) (es : List (CallEvent ι ν ε)) : Prop :=
  ∀ ev ∈ es, match ev with
    | .len _ _ _ => False
    | .get i _ _ _ => 0 ≤ i ∧ i < n
    | _ => True

theorem keepsRange_below {n : Int} {es es2 : List (CallEvent ι ν ε)} (h : Below n es) (h2 : KeepsRange n es2) :
    KeepsRange n (es ++ es2) := by
  induction es with
  | nil => exact h2
  | cons ev es ih =>
    have ih := ih fun ev hev => h ev (List.mem_cons_of_mem _ hev)
    have h := h ev (List.mem_cons_self ..)
    cases ev with
    | len o r o' => exact h.elim
    | get i o r o' => exact ⟨h, ih⟩
    | value | format | valueString | align | write => exact ih

theorem below_append {n : Int} {es1 es2 : List (CallEvent ι ν ε)} (h1 : Below n es1) (h2 : Below n es2) :
    Below n (es1 ++ es2) := fun ev hev => (List.mem_append.mp hev).elim (h1 ev) (h2 ev)

theorem below_each {n : Int} {R : γ → Run ι ν ε α} (l : List γ)
    (hR : ∀ x ∈ l, ∀ o es e o', R x o es e o' → Below n es) : ∀ o es e o', Each R l o es e o' → Below n es := by
  intro o es e o' h
  induction h with
  | nil => exact fun _ h => nomatch h
  | cons x xs a o o1 o2 es1 es2 e h hs ih =>
    exact below_append (hR _ (List.mem_cons_self ..) _ _ _ _ h) (ih fun y hy => hR y (List.mem_cons_of_mem _ hy))
  | cut x xs _ _ _ _ _ h hc => exact hR _ (List.mem_cons_self ..) _ _ _ _ h

theorem below_makesItem (t cols : Nat) (W : Objects → Nat → Except Fault UInt16) (k : Nat) (n : Int)
    (hk : (k : Int) < n) (o : Objects) (es : List (CallEvent ι ν ε)) (e : Outcome GoString) (o' : Objects)
    (h : MakesItem t cols W k o es e o') : Below n es := by
  have one : ∀ o r o', Below n [(CallEvent.get k o r o' : CallEvent ι ν ε)] := by
    intro o r o' ev hev
    rw [List.mem_singleton] at hev
    subst hev
    exact ⟨by omega, hk⟩
  cases h with
  | panics => exact one _ _ _
  | nilSpec => exact one _ _ _
  | made row sp _ o1 _ es e h hs =>
    refine below_append (es1 := [_]) (one _ _ _) ?_
    refine below_each _ (fun c _ o es e o' h => ?_) _ _ _ _ hs
    cases h with
    | nilColumn => exact fun _ h => nomatch h
    | short => exact fun _ h => nomatch h
    | noWidth => exact fun _ h => nomatch h
    | left => exact fun _ h => nomatch h
    | leftNoRoom => exact fun _ h => nomatch h
    | aligned => intro ev hev; rw [List.mem_singleton] at hev; subst hev; trivial
    | alignedNoRoom => intro ev hev; rw [List.mem_singleton] at hev; subst hev; trivial
    | alignPanics => intro ev hev; rw [List.mem_singleton] at hev; subst hev; trivial

theorem below_writesLine (t cols : Nat) (W : Nat → Objects → Nat → Except Fault UInt16) (sep : GoString)
    (g : Nat) (shown : List Nat) (n : Int) (hn : ∀ k ∈ shown, (k : Int) < n) (o : Objects)
    (es : List (CallEvent ι ν ε)) (e : Outcome Unit) (o' : Objects) (h : WritesLine t cols W sep g shown o es e o') :
    Below n es := by
  have items : ∀ o es e o', Each (fun p => MakesItem t cols (W p.2) p.1) shown.zipIdx o es e o' →
      Below (ι := ι) (ν := ν) (ε := ε) n es :=
    below_each _ fun p hp o es e o' h => below_makesItem t cols _ _ n (hn _ (List.fst_mem_of_mem_zipIdx hp)) _ _ _ _ h
  cases h with
  | cut _ _ _ _ _ h hc => exact items _ _ _ _ h
  | writes texts reply _ o1 _ es h =>
    refine below_append (items _ _ _ _ h) ?_
    intro ev hev
    rw [List.mem_singleton] at hev
    subst hev
    trivial

theorem range_prints (t cols : Nat) (W : Nat → Objects → Nat → Except Fault UInt16) (sep : GoString)
    (g : Nat) (onLine : Nat → Nat → Nat → List Nat) (hon : ∀ n g i k, k ∈ onLine n g i → k < n) (o : Objects)
    (es : List (CallEvent ι ν ε)) (e : Outcome Unit) (o' : Objects) (h : Prints t cols W sep g onLine o es e o')
    (m : Int) : KeepsRange m es := by
  cases h with
  | panics => trivial
  | lines n _ o1 _ es e h =>
    show KeepsRange n es
    rw [← List.append_nil es]
    refine keepsRange_below (below_each _ (fun i _ o es e o' h => ?_) _ _ _ _ h) trivial
    refine below_writesLine t cols W sep g _ n (fun k hk => ?_) _ _ _ _ h
    have := hon _ _ _ _ hk
    omega

theorem below_measures (c : Nat) (ks : List Nat) (n : Int) (hn : ∀ k ∈ ks, (k : Int) < n) (o : Objects)
    (es : List (CallEvent ι ν ε)) (e : Outcome (List UInt16)) (o' : Objects)
    (h : Each (ReadsCell c) ks o es e o') : Below n es := by
  refine below_each _ (fun k hk o es e o' h => ?_) _ _ _ _ h
  have one : ∀ o r o', Below n [(CallEvent.get k o r o' : CallEvent ι ν ε)] := by
    intro o r o' ev hev
    rw [List.mem_singleton] at hev
    subst hev
    exact ⟨by omega, hn k hk⟩
  cases h with
  | panics => exact one _ _ _
  | short => exact one _ _ _
  | reads => exact one _ _ _

theorem range_append {n : Int} {es1 es2 : List (CallEvent ι ν ε)} (h1 : KeepsRange n es1)
    (h2 : ∀ m, KeepsRange m es2) : KeepsRange n (es1 ++ es2) := by
  induction es1 generalizing n with
  | nil => exact h2 n
  | cons ev es ih =>
    cases ev with
    | get i o r o' => exact ⟨h1.1, ih h1.2⟩
    | len o r o' => cases r <;> exact ih (n := _) h1
    | value | format | valueString | align | write => exact ih (n := _) h1

theorem range_measures (t : Nat) (verdict : Int → Nat → Verdict)
    (down : Nat → Nat → Nat → List Nat) (hd : ∀ n g j k, k ∈ down n g j → k < n) (g : Nat) (o : Objects)
    (es : List (CallEvent ι ν ε)) (e : Outcome (Option (List UInt16))) (o' : Objects)
    (h : MeasuresGroups t verdict down g o es e o') (m : Int) : KeepsRange m es := by
  cases h with
  | panics => trivial
  | nilSpec => trivial
  | crashes => trivial
  | givesUp => trivial
  | measures n sp _ o1 _ es e h hv hs =>
    show KeepsRange n es
    rw [← List.append_nil es]
    refine keepsRange_below (below_each _ (fun j _ o es e o' h => ?_) _ _ _ _ hs) trivial
    refine below_each _ (fun c _ o es e o' h => ?_) _ _ _ _ h
    refine below_measures c _ n (fun k hk => ?_) _ _ _ _ h
    have := hd _ _ _ _ hk
    omega

theorem range_seeks (t cols sepLen maxWidth : Nat) (verdict : Int → Nat → Verdict)
    (down : Nat → Nat → Nat → List Nat) (hd : ∀ n g j k, k ∈ down n g j → k < n) (fuel g : Nat)
    (w : Option (List UInt16)) (o : Objects) (es : List (CallEvent ι ν ε)) (e : Outcome (Nat × Option (List UInt16)))
    (o' : Objects) (h : Seeks t cols sepLen maxWidth verdict down fuel g w o es e o') (m : Int) :
    KeepsRange m es := by
  induction h generalizing m with
  | unfinished => trivial
  | cut _ _ _ _ _ _ _ _ h hc => exact range_measures t verdict down hd _ _ _ _ _ h m
  | givesUp _ _ _ _ _ _ h => exact range_measures t verdict down hd _ _ _ _ _ h m
  | tooWide _ _ _ _ _ _ _ h _ => exact range_measures t verdict down hd _ _ _ _ _ h m
  | fits _ _ _ _ _ _ _ _ _ _ h _ _ ih => exact range_append (range_measures t verdict down hd _ _ _ _ _ h m) ih

theorem range_merges (t : Nat) (arg : Int) (sep : GoString) (verdict : Int → Nat → Verdict)
    (down : Nat → Nat → Nat → List Nat) (onLine : Nat → Nat → Nat → List Nat)
    (hd : ∀ n g j k, k ∈ down n g j → k < n) (hon : ∀ n g i k, k ∈ onLine n g i → k < n) (compact : Bool) (fuel : Nat)
    (o : Objects) (es : List (CallEvent ι ν ε)) (e : Outcome Unit) (o' : Objects)
    (h : Merges t arg sep verdict down onLine compact fuel o es e o') (m : Int) : KeepsRange m es := by
  cases h with
  | nilSpec => trivial
  | nilColumn => trivial
  | zero => trivial
  | plain _ _ _ _ _ _ _ _ _ hr => exact range_prints _ _ _ _ _ _ hon _ _ _ _ hr m
  | compact _ _ _ _ _ _ _ _ _ hr =>
    cases hr with
    | goesOn r _ o1 _ es1 es2 _ h hs =>
      exact range_append (range_seeks _ _ _ _ _ _ hd _ _ _ _ _ _ _ h m) fun m =>
        range_prints _ _ _ _ _ _ hon _ _ _ _ hs m
    | cut _ _ _ _ _ h hc => exact range_seeks _ _ _ _ _ _ hd _ _ _ _ _ _ _ h m

/-! ## Columns that are kept -/

/-- The panics of a merge that finds a column, a cell or a width missing. -/
def Missing (e : Outcome α) : Prop := e = .panicked (.run .index) ∨ ∃ p, e = .panicked (.onNil p)

/-- With columns that are kept, nothing is missing, and what is returned has property `Q`. -/
def Safe (t : Nat) (s : Slice) (Q : α → Prop) (R : Run ι ν ε α) : Prop :=
  ∀ o es e o', R o es e o' → Steady t s o → KeepsColumns t s es →
    Steady t s o' ∧ ¬ Missing e ∧ ∀ a, e = .returned a → Q a

theorem missing_map {e : Outcome α} (φ : α → β) (h : ¬ Missing e) : ¬ Missing (e.map φ) := by
  cases e with
  | returned a => rintro (h | ⟨p, h⟩) <;> cases h
  | unfinished => rintro (h | ⟨p, h⟩) <;> cases h
  | panicked why =>
    rintro (h' | ⟨p, h'⟩) <;> cases h'
    · exact h (.inl rfl)
    · exact h (.inr ⟨_, rfl⟩)

theorem missing_cut {e : Outcome α} {e' : Outcome β} (hc : BreaksOff e e') (h : ¬ Missing e) : ¬ Missing e' := by
  cases hc with
  | unfinished => rintro (h | ⟨p, h⟩) <;> cases h
  | panicked why =>
    rintro (h' | ⟨p, h'⟩) <;> cases h'
    · exact h (.inl rfl)
    · exact h (.inr ⟨_, rfl⟩)

theorem missing_returned (a : α) : ¬ Missing (Outcome.returned a) := by
  rintro (h | ⟨p, h⟩) <;> cases h

theorem keeps_append {t : Nat} {s : Slice} {es1 es2 : List (CallEvent ι ν ε)} :
    KeepsColumns t s (es1 ++ es2) ↔ KeepsColumns t s es1 ∧ KeepsColumns t s es2 := by
  unfold KeepsColumns
  simp only [List.mem_append]
  constructor
  · exact fun h => ⟨fun ev hev => h ev (.inl hev), fun ev hev => h ev (.inr hev)⟩
  · rintro ⟨h1, h2⟩ ev (hev | hev)
    · exact h1 ev hev
    · exact h2 ev hev

theorem safe_each {t : Nat} {s : Slice} {R : γ → Run ι ν ε α} {Q : α → Prop} (l : List γ)
    (hR : ∀ x ∈ l, Safe t s Q (R x)) :
    Safe t s (fun as => as.length = l.length ∧ ∀ a ∈ as, Q a) (Each R l) := by
  intro o es e o' h
  induction h with
  | nil => exact fun ho _ => ⟨ho, missing_returned _, fun a ha => by cases ha; exact ⟨rfl, fun _ h => nomatch h⟩⟩
  | cons x xs a o o1 o2 es1 es2 e h hs ih =>
    intro ho hk
    obtain ⟨hk1, hk2⟩ := keeps_append.mp hk
    obtain ⟨ho1, _, hq⟩ := hR x (List.mem_cons_self ..) _ _ _ _ h ho hk1
    obtain ⟨ho2, hm, hqs⟩ := ih (fun y hy => hR y (List.mem_cons_of_mem _ hy)) ho1 hk2
    refine ⟨ho2, missing_map _ hm, fun as ha => ?_⟩
    cases e with
    | returned as' =>
      cases ha
      obtain ⟨h1, h2⟩ := hqs as' rfl
      exact ⟨by simp [h1], List.forall_mem_cons.mpr ⟨hq a rfl, h2⟩⟩
    | panicked | unfinished => cases ha
  | cut x xs _ _ _ _ _ h hc =>
    intro ho hk
    obtain ⟨ho1, hm, _⟩ := hR x (List.mem_cons_self ..) _ _ _ _ h ho hk
    exact ⟨ho1, missing_cut hc hm, fun as ha => by subst ha; cases hc⟩

theorem safe_any {t : Nat} {s : Slice} {R : Run ι ν ε α} {Q : α → Prop} (h : Safe t s Q R) :
    Safe t s (fun _ => True) R := fun _ _ _ _ hr ho hk =>
  let ⟨h1, h2, _⟩ := h _ _ _ _ hr ho hk
  ⟨h1, h2, fun _ _ => trivial⟩

/-- The widths are all there. -/
def WidthsThere (t : Nat) (s : Slice) (W : Objects → Nat → Except Fault UInt16) : Prop :=
  ∀ o c, Steady t s o → c < s.len → ∃ w, W o c = .ok w

theorem safe_makesCell (t : Nat) (s : Slice) (W : Objects → Nat → Except Fault UInt16)
    (hW : WidthsThere t s W) (row : Slice) (hr : s.len ≤ row.len) (c : Nat) (hc : c < s.len) :
    Safe t s (fun _ => True) (MakesCell (ι := ι) (ν := ν) (ε := ε) s.len W s row c) := by
  intro o es e o' h ho hk
  cases h with
  | nilColumn h => exact absurd h (ho.2 c hc)
  | short col h hr' => omega
  | noWidth col why h hr hw =>
    obtain ⟨w, hw'⟩ := hW o c ho hc
    rw [hw] at hw'
    cases hw'
  | left => exact ⟨ho, missing_returned _, fun _ _ => trivial⟩
  | leftNoRoom col w h hr hw ha hc' => omega
  | aligned => exact ⟨(hk _ (List.mem_cons_self ..)).1, missing_returned _, fun _ _ => trivial⟩
  | alignedNoRoom col al w text o' h hr hw ha hc' => omega
  | alignPanics =>
    exact ⟨(hk _ (List.mem_cons_self ..)).1, (by rintro (h | ⟨p, h⟩) <;> cases h), fun _ _ => trivial⟩

theorem safe_makesItem (t : Nat) (s : Slice) (W : Objects → Nat → Except Fault UInt16)
    (hW : WidthsThere t s W) (k : Nat) :
    Safe t s (fun _ => True) (MakesItem (ι := ι) (ν := ν) (ε := ε) t s.len W k) := by
  intro o es e o' h ho hk
  cases h with
  | panics =>
    exact ⟨(hk _ (List.mem_cons_self ..)).1, (by rintro (h | ⟨p, h⟩) <;> cases h), fun _ _ => trivial⟩
  | nilSpec row _ _ h =>
    obtain ⟨⟨sp, h1, _⟩, _⟩ := (hk _ (List.mem_cons_self ..)).1
    replace h1 : o'.spec t = some sp := h1
    rw [h] at h1
    cases h1
  | made row sp _ o1 _ es e h hs =>
    obtain ⟨h1, hr⟩ := hk _ (List.mem_cons_self ..)
    replace h1 : Steady t s o1 := h1
    replace hr : s.len ≤ row.len := hr
    obtain ⟨⟨sp', h2, h3⟩, h4⟩ := h1
    rw [h] at h2
    cases h2
    rw [h3] at hs
    obtain ⟨h5, h6, _⟩ := safe_each (Q := fun _ => True) _ (fun c hc => safe_makesCell t s W hW row hr c
      (by simpa using hc)) _ _ _ _ hs ⟨⟨sp, h, h3⟩, h4⟩ fun ev hev => hk ev (List.mem_cons_of_mem _ hev)
    exact ⟨h5, missing_map _ h6, fun _ _ => trivial⟩

theorem safe_writesLine (t : Nat) (s : Slice) (W : Nat → Objects → Nat → Except Fault UInt16)
    (sep : GoString) (g : Nat) (hW : ∀ j, j < g → WidthsThere t s (W j)) (shown : List Nat) (hg : shown.length ≤ g) :
    Safe t s (fun _ => True) (WritesLine (ι := ι) (ν := ν) (ε := ε) t s.len W sep g shown) := by
  have items : Safe t s (fun as => as.length = shown.zipIdx.length ∧ ∀ a ∈ as, True)
      (Each (fun p => MakesItem (ι := ι) (ν := ν) (ε := ε) t s.len (W p.2) p.1) shown.zipIdx) := by
    refine safe_each _ fun p hp => safe_makesItem t s _ (hW _ ?_) _
    have := List.snd_lt_of_mem_zipIdx hp
    omega
  intro o es e o' h ho hk
  cases h with
  | cut _ _ _ _ _ h hc =>
    obtain ⟨h1, h2, _⟩ := items _ _ _ _ h ho hk
    exact ⟨h1, missing_cut hc h2, fun _ _ => trivial⟩
  | writes texts reply _ o1 _ es h =>
    have hl : Steady t s o' := (hk _ (List.mem_append.mpr (.inr (List.mem_cons_self ..)))).1
    refine ⟨hl, ?_, fun _ _ => trivial⟩
    cases reply with
    | none => rintro (h | ⟨p, h⟩) <;> cases h
    | some b => cases b <;> rintro (h | ⟨p, h⟩) <;> cases h

theorem safe_prints (t : Nat) (s : Slice) (W : Nat → Objects → Nat → Except Fault UInt16) (sep : GoString)
    (g : Nat) (hW : ∀ j, j < g → WidthsThere t s (W j)) (onLine : Nat → Nat → Nat → List Nat)
    (hon : ∀ n g i, (onLine n g i).length ≤ g) :
    Safe t s (fun _ => True) (Prints (ι := ι) (ν := ν) (ε := ε) t s.len W sep g onLine) := by
  intro o es e o' h ho hk
  cases h with
  | panics =>
    exact ⟨(hk _ (List.mem_cons_self ..)).1, (by rintro (h | ⟨p, h⟩) <;> cases h), fun _ _ => trivial⟩
  | lines n _ o1 _ es e h =>
    obtain ⟨h5, h6, _⟩ := safe_each (Q := fun _ => True) _ (fun i _ => safe_writesLine t s W sep g hW _ (hon _ _ _))
      _ _ _ _ h (hk _ (List.mem_cons_self ..)).1 fun ev hev => hk ev (List.mem_cons_of_mem _ hev)
    exact ⟨h5, missing_map _ h6, fun _ _ => trivial⟩

theorem safe_readsCell (t : Nat) (s : Slice) (c k : Nat) (hc : c < s.len) :
    Safe t s (fun _ => True) (ReadsCell (ι := ι) (ν := ν) (ε := ε) c k) := by
  intro o es e o' h ho hk
  cases h with
  | panics =>
    exact ⟨(hk _ (List.mem_cons_self ..)).1, (by rintro (h | ⟨p, h⟩) <;> cases h), fun _ _ => trivial⟩
  | short row _ _ h =>
    have : s.len ≤ row.len := (hk _ (List.mem_cons_self ..)).2
    omega
  | reads => exact ⟨(hk _ (List.mem_cons_self ..)).1, missing_returned _, fun _ _ => trivial⟩

theorem safe_measures (t : Nat) (s : Slice) (verdict : Int → Nat → Verdict)
    (down : Nat → Nat → Nat → List Nat) (g : Nat) :
    Safe t s (fun r => ∀ ws, r = some ws → ws.length = g * s.len)
      (MeasuresGroups (ι := ι) (ν := ν) (ε := ε) t verdict down g) := by
  intro o es e o' h ho hk
  cases h with
  | panics =>
    exact ⟨(hk _ (List.mem_cons_self ..)).1, (by rintro (h | ⟨p, h⟩) <;> cases h), fun _ h => by cases h⟩
  | nilSpec n _ _ h =>
    obtain ⟨⟨sp, h1, _⟩, _⟩ := (hk _ (List.mem_cons_self ..)).1
    replace h1 : o'.spec t = some sp := h1
    rw [h] at h1
    cases h1
  | crashes => exact ⟨(hk _ (List.mem_cons_self ..)).1, (by rintro (h | ⟨p, h⟩) <;> cases h), fun _ h => by cases h⟩
  | givesUp =>
    exact ⟨(hk _ (List.mem_cons_self ..)).1, missing_returned _, fun r h ws hw => by cases h; cases hw⟩
  | measures n sp _ o1 _ es e h hv hs =>
    have h1 : Steady t s o1 := (hk _ (List.mem_cons_self ..)).1
    obtain ⟨⟨sp', h2, h3⟩, h4⟩ := h1
    rw [h] at h2
    cases h2
    rw [h3] at hs
    obtain ⟨h5, h6, h7⟩ := safe_each (List.range g) (fun j _ => safe_each (List.range s.len) (fun c hc =>
      safe_any (safe_each (down n.toNat g j) (fun k _ => safe_readsCell t s c k (List.mem_range.mp hc))))) _ _ _ _ hs ⟨⟨sp, h, h3⟩, h4⟩
      fun ev hev => hk ev (List.mem_cons_of_mem _ hev)
    refine ⟨h5, missing_map _ h6, fun r hr ws hw => ?_⟩
    cases e with
    | returned texts =>
      cases hr
      cases hw
      obtain ⟨h8, h9⟩ := h7 texts rfl
      rw [List.length_flatMap]
      rw [show (List.map (fun group : List (List UInt16) => (List.map widest group).length) texts) = texts.map fun _ => s.len from by
          refine List.map_congr_left fun group hg => ?_
          rw [List.length_map, (h9 group hg).1, List.length_range]]
      rw [List.map_const', List.sum_replicate, h8, List.length_range]
      rfl
    | panicked | unfinished => cases hr

theorem safe_seeks (t : Nat) (s : Slice) (sepLen maxWidth : Nat) (verdict : Int → Nat → Verdict)
    (down : Nat → Nat → Nat → List Nat) (fuel g : Nat) (w : Option (List UInt16))
    (hw0 : ∀ ws, w = some ws → ws.length = g * s.len) :
    Safe t s (fun r => ∀ ws, r.2 = some ws → ws.length = r.1 * s.len)
      (Seeks (ι := ι) (ν := ν) (ε := ε) t s.len sepLen maxWidth verdict down fuel g w) := by
  intro o es e o' h
  induction h with
  | unfinished => exact fun ho _ => ⟨ho, (by rintro (h | ⟨p, h⟩) <;> cases h), fun _ h => by cases h⟩
  | cut fuel g w _ _ _ _ _ h hc =>
    intro ho hk
    obtain ⟨h1, h2, _⟩ := safe_measures t s verdict down _ _ _ _ _ h ho hk
    exact ⟨h1, missing_cut hc h2, fun as ha => by subst ha; cases hc⟩
  | givesUp fuel g w _ _ _ h =>
    intro ho hk
    obtain ⟨h1, h2, _⟩ := safe_measures t s verdict down _ _ _ _ _ h ho hk
    exact ⟨h1, missing_returned _, fun a ha => by cases ha; exact hw0⟩
  | tooWide fuel g w ws _ _ _ h hw =>
    intro ho hk
    obtain ⟨h1, h2, _⟩ := safe_measures t s verdict down _ _ _ _ _ h ho hk
    exact ⟨h1, missing_returned _, fun a ha => by cases ha; exact hw0⟩
  | fits fuel g w ws _ _ _ _ _ _ h hw hs ih =>
    intro ho hk
    obtain ⟨hk1, hk2⟩ := keeps_append.mp hk
    obtain ⟨h1, h2, h3⟩ := safe_measures t s verdict down _ _ _ _ _ h ho hk1
    exact ih (fun ws' hws => by cases hws; exact h3 _ rfl _ rfl) h1 hk2

theorem there_table (t : Nat) (s : Slice) (j : Nat) : WidthsThere t s (widthIn t s.len none j) := by
  rintro o c ⟨⟨sp, h1, h2⟩, h3⟩ hc
  have h3 := h3 c hc
  cases he : o.element s.array (s.first + c) with
  | none => exact absurd he h3
  | some col =>
    simp only [widthIn, widthNow, h1, h2, hc, if_true, he]
    exact ⟨_, rfl⟩

theorem there_found (t : Nat) (s : Slice) (g : Nat) (ws : List UInt16) (hws : ws.length = g * s.len) (j : Nat)
    (hj : j < g) : WidthsThere t s (widthIn t s.len (some ws) j) := by
  intro o c _ hc
  have : j * s.len + c < ws.length := by
    rw [hws]
    calc j * s.len + c < j * s.len + s.len := by omega
      _ = (j + 1) * s.len := by rw [Nat.add_mul, Nat.one_mul]
      _ ≤ g * s.len := Nat.mul_le_mul_right _ hj
  simp only [widthIn, widthFound, List.getElem?_eq_getElem this]
  exact ⟨_, rfl⟩

theorem safe_merges (t : Nat) (s : Slice) (arg : Int) (sep : GoString) (verdict : Int → Nat → Verdict)
    (down : Nat → Nat → Nat → List Nat) (onLine : Nat → Nat → Nat → List Nat)
    (hon : ∀ n g i, (onLine n g i).length ≤ g) (compact : Bool) (fuel : Nat) :
    Safe t s (fun _ => True) (Merges (ι := ι) (ν := ν) (ε := ε) t arg sep verdict down onLine compact fuel) := by
  intro o es e o' h ho hk
  obtain ⟨⟨sp, h1, h2⟩, h3⟩ := ho
  cases h with
  | nilSpec _ h => rw [h] at h1; cases h1
  | nilColumn sp' i _ h hi hn =>
    rw [h] at h1
    cases h1
    rw [h2] at hi hn
    unfold nameAt at hn
    rw [Option.map_eq_none_iff] at hn
    exact absurd hn (h3 i hi)
  | zero =>
    exact ⟨⟨⟨sp, h1, h2⟩, h3⟩, (by rintro (h | ⟨p, h⟩) <;> cases h), fun _ _ => trivial⟩
  | plain sp' _ _ _ _ h _ _ _ hr =>
    rw [h] at h1
    cases h1
    rw [h2] at hr
    exact safe_prints t s _ sep _ (fun j _ => there_table t s j) onLine hon _ _ _ _ hr ⟨⟨sp, h, h2⟩, h3⟩ hk
  | compact sp' _ _ _ _ h _ _ _ hr =>
    rw [h] at h1
    cases h1
    rw [h2] at hr
    have hs := safe_seeks (ι := ι) (ν := ν) (ε := ε) t s sep.length (clamped arg) verdict down fuel
      (plainGroups (clamped arg) sep.length (pitchNow t o s sep.length)) none (fun ws hw => by cases hw)
    cases hr with
    | goesOn r _ o1 _ es1 es2 _ hr1 hr2 =>
      obtain ⟨hk1, hk2⟩ := keeps_append.mp hk
      obtain ⟨h4, _, h6⟩ := hs _ _ _ _ hr1 ⟨⟨sp, h, h2⟩, h3⟩ hk1
      have h6 := h6 r rfl
      refine safe_prints t s _ sep _ (fun j hj => ?_) onLine hon _ _ _ _ hr2 h4 hk2
      obtain ⟨g, found⟩ := r
      cases found with
      | none => exact there_table t s j
      | some ws => exact there_found t s g ws (h6 ws rfl) j hj
    | cut _ _ _ _ _ hr1 hc =>
      obtain ⟨h4, h5, _⟩ := hs _ _ _ _ hr1 ⟨⟨sp, h, h2⟩, h3⟩ hk
      exact ⟨h4, missing_cut hc h5, fun _ _ => trivial⟩

theorem length_onLineH (n g i : Nat) : (onLineH n g i).length ≤ g := by
  unfold onLineH
  exact (List.length_filter_le _ _).trans (by simp)

theorem length_onLineV (n g l i : Nat) : (onLineV n g l i).length ≤ g := by
  unfold onLineV
  exact (List.length_filter_le _ _).trans (by simp)

/-! ## How often user code is called -/

/-- A run that returns calls, among the calls `φ` picks, exactly those of `l`. -/
def Picks (φ : CallEvent ι ν ε → Option β) (l : List β) (R : Run ι ν ε α) : Prop :=
  ∀ o es a o', R o es (.returned a) o' → es.filterMap φ = l

theorem picks_each {φ : CallEvent ι ν ε → Option β} {R : γ → Run ι ν ε α} {F : γ → List β} (l : List γ)
    (h : ∀ x ∈ l, Picks φ (F x) (R x)) : Picks φ (l.flatMap F) (Each R l) := by
  intro o es a o' hr
  generalize he : Outcome.returned a = e at hr
  induction hr generalizing a with
  | nil => rfl
  | cons x xs a' o o1 o2 es1 es2 e h1 h2 ih =>
    cases e with
    | returned as =>
      rw [List.filterMap_append, List.flatMap_cons, h x (List.mem_cons_self ..) _ _ _ _ h1,
        ih (fun y hy => h y (List.mem_cons_of_mem _ hy)) _ rfl]
    | panicked | unfinished => cases he
  | cut x xs _ _ _ _ _ h1 hc => subst he; cases hc

theorem picks_makesCell (cols : Nat) (W : Objects → Nat → Except Fault UInt16) (s row : Slice) (c : Nat)
    (φ : CallEvent ι ν ε → Option β) (hφ : ∀ al text w o r o', φ (.align al text w o r o') = none) :
    Picks φ [] (MakesCell cols W s row c) := by
  intro o es a o' h
  cases h with
  | left => rfl
  | aligned => simp [hφ]

theorem picks_makesItem (t cols : Nat) (W : Objects → Nat → Except Fault UInt16) (k : Nat)
    (φ : CallEvent ι ν ε → Option β) (hφ : ∀ al text w o r o', φ (.align al text w o r o') = none)
    (l : List β) (hl : ∀ o r o', [CallEvent.get k o r o'].filterMap φ = l) :
    Picks φ l (MakesItem t cols W k) := by
  intro o es a o' h
  generalize he : Outcome.returned a = e at h
  cases h with
  | panics => cases he
  | nilSpec => cases he
  | made row sp _ o1 _ es e h hs =>
    cases e with
    | returned texts =>
      rw [← List.singleton_append, List.filterMap_append, hl,
        picks_each _ (fun c _ => picks_makesCell cols W _ _ c φ hφ) _ _ _ _ hs]
      simp
    | panicked | unfinished => cases he

theorem picks_writesLine (t cols : Nat) (W : Nat → Objects → Nat → Except Fault UInt16) (sep : GoString)
    (g : Nat) (shown : List Nat) (φ : CallEvent ι ν ε → Option β)
    (hφ : ∀ al text w o r o', φ (.align al text w o r o') = none) (G : Nat → List β)
    (hG : ∀ (k : Nat) o r o', [CallEvent.get k o r o'].filterMap φ = G k) (o : Objects) (es : List (CallEvent ι ν ε))
    (a : Unit) (o' : Objects) (h : WritesLine t cols W sep g shown o es (.returned a) o') :
    ∃ text o1, es.filterMap φ =
      shown.flatMap G ++ [CallEvent.write text o1 (some false) o'].filterMap φ := by
  generalize he : Outcome.returned a = e at h
  cases h with
  | cut _ _ _ _ _ h hc => subst he; cases hc
  | writes texts reply _ o1 _ es h =>
    have h1 := picks_each (F := fun p => G p.1) _ (fun p _ => picks_makesItem t cols (W p.2) p.1 φ hφ _ (hG p.1))
      _ _ _ _ h
    refine ⟨(List.intercalate sep (texts ++ if shown.length < g then [[]] else []) ++ [0x0A]), o1, ?_⟩
    · rw [List.filterMap_append, h1]
      have : (shown.zipIdx.flatMap fun p => G p.1) = shown.flatMap G := by
        conv_rhs => rw [← List.zipIdx_map_fst 0 shown, List.flatMap_map]
      rw [this]
      cases reply with
      | none => cases he
      | some b => cases b <;> first | rfl | cases he

/-- What a printing part that returns has called. -/
theorem calls_prints (t cols : Nat) (W : Nat → Objects → Nat → Except Fault UInt16) (sep : GoString)
    (g : Nat) (onLine : Nat → Nat → Nat → List Nat) (o : Objects) (es : List (CallEvent ι ν ε)) (a : Unit)
    (o' : Objects) (h : Prints t cols W sep g onLine o es (.returned a) o') :
    ∃ n : Int, es.filterMap lengthOf = [some n] ∧ (es.filterMap sentOf).length = linesClaimed n g ∧
      es.filterMap itemOf = ((List.range (linesClaimed n g)).flatMap (onLine n.toNat g)).map Int.ofNat := by
  generalize he : Outcome.returned a = e at h
  cases h with
  | panics => cases he
  | lines n _ o1 _ es e h =>
    cases e with
    | returned us =>
      refine ⟨n, ?_, ?_, ?_⟩
      · have := picks_each (F := fun _ => []) (φ := lengthOf) _ (fun i _ o es a o' h => by
          obtain ⟨text, o1, h1⟩ := picks_writesLine t cols W sep g _ lengthOf (fun _ _ _ _ _ _ => rfl) (fun _ => [])
            (fun _ _ _ _ => rfl) _ _ _ _ h
          rw [h1]
          simp [lengthOf]) _ _ _ _ h
        rw [← List.singleton_append, List.filterMap_append, this]
        simp [lengthOf]
      · have := picks_each (F := fun _ => [()]) (φ := fun ev : CallEvent ι ν ε => (sentOf ev).map fun _ => ()) _
          (fun i _ o es a o' h => by
            obtain ⟨text, o1, h1⟩ := picks_writesLine t cols W sep g _ (fun ev => (sentOf ev).map fun _ => ())
              (fun _ _ _ _ _ _ => rfl) (fun _ => []) (fun _ _ _ _ => rfl) _ _ _ _ h
            rw [h1]
            simp [sentOf]) _ _ _ _ h
        rw [List.filterMap_cons_none (by rfl)]
        have h2 := congrArg List.length this
        rw [← List.map_filterMap, List.length_map] at h2
        rw [h2]
        simp
      · have := picks_each (φ := itemOf) (F := fun i => (onLine n.toNat g i).map Int.ofNat) _ (fun i _ o es a o' h => by
          obtain ⟨text, o1, h1⟩ := picks_writesLine t cols W sep g _ itemOf (fun _ _ _ _ _ _ => rfl)
            (fun k => [Int.ofNat k]) (fun _ _ _ _ => rfl) _ _ _ _ h
          rw [h1]
          simp [itemOf, List.map_eq_flatMap]) _ _ _ _ h
        rw [List.filterMap_cons_none (by rfl), this, List.map_flatMap]
    | panicked | unfinished => cases he

/-! ## The number of rounds -/

theorem seeks_more {t cols sepLen maxWidth : Nat} {verdict : Int → Nat → Verdict}
    {down : Nat → Nat → Nat → List Nat} {fuel g : Nat} {w : Option (List UInt16)} {o : Objects}
    {es : List (CallEvent ι ν ε)} {e : Outcome (Nat × Option (List UInt16))} {o' : Objects}
    (h : Seeks t cols sepLen maxWidth verdict down fuel g w o es e o') (he : e ≠ .unfinished) (fuel' : Nat)
    (hf : fuel ≤ fuel') : Seeks t cols sepLen maxWidth verdict down fuel' g w o es e o' := by
  induction h generalizing fuel' with
  | unfinished => exact absurd rfl he
  | cut fuel g w _ _ _ _ _ h hc =>
    obtain ⟨k, rfl⟩ : ∃ k, fuel' = k + 1 := ⟨fuel' - 1, by omega⟩
    exact .cut _ _ _ _ _ _ _ _ h hc
  | givesUp fuel g w _ _ _ h =>
    obtain ⟨k, rfl⟩ : ∃ k, fuel' = k + 1 := ⟨fuel' - 1, by omega⟩
    exact .givesUp _ _ _ _ _ _ h
  | tooWide fuel g w ws _ _ _ h hw =>
    obtain ⟨k, rfl⟩ : ∃ k, fuel' = k + 1 := ⟨fuel' - 1, by omega⟩
    exact .tooWide _ _ _ _ _ _ _ h hw
  | fits fuel g w ws _ _ _ _ _ _ h hw hs ih =>
    obtain ⟨k, rfl⟩ : ∃ k, fuel' = k + 1 := ⟨fuel' - 1, by omega⟩
    exact .fits _ _ _ _ _ _ _ _ _ _ h hw (ih he k (by omega))

theorem merges_more {t : Nat} {arg : Int} {sep : GoString} {verdict : Int → Nat → Verdict}
    {down onLine : Nat → Nat → Nat → List Nat} {compact : Bool} {fuel : Nat} {o : Objects}
    {es : List (CallEvent ι ν ε)} {e : Outcome Unit} {o' : Objects}
    (h : Merges t arg sep verdict down onLine compact fuel o es e o') (he : e ≠ .unfinished) (fuel' : Nat)
    (hf : fuel ≤ fuel') : Merges t arg sep verdict down onLine compact fuel' o es e o' := by
  cases h with
  | nilSpec _ h => exact .nilSpec _ h
  | nilColumn _ _ _ h hi hn => exact .nilColumn _ _ _ h hi hn
  | zero _ _ h hn hp => exact .zero _ _ h hn hp
  | plain sp _ _ _ _ h hn hp hc hr => exact .plain sp _ _ _ _ h hn hp hc hr
  | compact sp _ _ _ _ h hn hp hc hr =>
    refine .compact sp _ _ _ _ h hn hp hc ?_
    cases hr with
    | goesOn a _ _ _ _ _ _ h hs => exact .goesOn a _ _ _ _ _ _ (seeks_more h nofun fuel' hf) hs
    | cut _ _ _ _ _ h hc =>
      refine .cut _ _ _ _ _ (seeks_more h ?_ fuel' hf) hc
      rintro rfl
      cases hc
      exact he rfl

theorem measured_within {t : Nat} {down : Nat → Nat → Nat → List Nat} {g N : Nat}
    {o : Objects} {es : List (CallEvent ι ν ε)} {ws : List UInt16} {o' : Objects} (hg : 0 < g)
    (h : MeasuresGroups t verdictV down g o es (.returned (some ws)) o') (hN : LengthsWithin N es) : g ≤ N := by
  generalize he : Outcome.returned (some ws) = e at h
  cases h with
  | panics => cases he
  | nilSpec => cases he
  | crashes => cases he
  | givesUp => cases he
  | measures n sp _ o1 _ es e h hv hs =>
    obtain ⟨h1, h2⟩ := hN n (by simp [lengthOf])
    unfold verdictV at hv
    by_cases hn : 0 < n
    · rw [if_pos hn] at hv
      by_cases hl : (g - 1) * linesFor n.toNat g < n.toNat
      · have h3 : 0 < linesFor n.toNat g := linesFor_pos _ _ (by omega) hg
        have : g - 1 ≤ (g - 1) * linesFor n.toNat g := Nat.le_mul_of_pos_right _ h3
        omega
      · rw [if_neg hl] at hv; cases hv
    · rw [if_neg hn] at hv
      by_cases h3 : 1 - n < g
      · rw [if_pos h3] at hv; cases hv
      · rw [if_neg h3] at hv
        by_cases h4 : 1 - n < 2 * g
        · rw [if_pos h4] at hv; cases hv
        · omega

theorem no_unfinished_each {R : γ → Run ι ν ε α} (hR : ∀ x o es e o', R x o es e o' → e ≠ .unfinished) {l : List γ}
    {o : Objects} {es : List (CallEvent ι ν ε)} {e : Outcome (List α)} {o' : Objects} (h : Each R l o es e o') :
    e ≠ .unfinished := by
  induction h with
  | nil => nofun
  | cons x xs a o o1 o2 es1 es2 e h hs ih => cases e <;> first | exact absurd rfl ih | nofun
  | cut x xs _ _ _ _ _ h hc =>
    cases hc with
    | panicked => nofun
    | unfinished => exact absurd rfl (hR _ _ _ _ _ h)

theorem no_unfinished_map {e : Outcome α} (φ : α → β) (h : e ≠ .unfinished) : e.map φ ≠ .unfinished := by
  cases e <;> first | exact absurd rfl h | nofun

theorem no_unfinished_prints {t cols : Nat} {W : Nat → Objects → Nat → Except Fault UInt16} {sep : GoString}
    {g : Nat} {onLine : Nat → Nat → Nat → List Nat} {o : Objects} {es : List (CallEvent ι ν ε)} {e : Outcome Unit}
    {o' : Objects} (h : Prints t cols W sep g onLine o es e o') : e ≠ .unfinished := by
  cases h with
  | panics => nofun
  | lines n _ o1 _ es e h =>
    refine no_unfinished_map _ (no_unfinished_each (fun i o es e o' h => ?_) h)
    have items : ∀ {l o es e o'}, Each (ι := ι) (ν := ν) (ε := ε) (fun p : Nat × Nat => MakesItem t cols (W p.2) p.1) l
        o es e o' → e ≠ .unfinished := by
      intro l o es e o' h
      refine no_unfinished_each (fun p o es e o' h => ?_) h
      cases h with
      | panics => nofun
      | nilSpec => nofun
      | made row sp _ o1 _ es e h hs =>
        refine no_unfinished_map _ (no_unfinished_each (fun c o es e o' h => ?_) hs)
        cases h with
        | noWidth | nilColumn | short | left | leftNoRoom | aligned | alignedNoRoom | alignPanics => nofun
    cases h with
    | cut _ _ _ _ _ h hc =>
      cases hc with
      | panicked => nofun
      | unfinished => exact absurd rfl (items h)
    | writes texts reply _ o1 _ es h =>
      cases reply with
      | none => nofun
      | some b => cases b <;> nofun

theorem no_unfinished_measures {t : Nat} {verdict : Int → Nat → Verdict}
    {down : Nat → Nat → Nat → List Nat} {g : Nat} {o : Objects} {es : List (CallEvent ι ν ε)}
    {e : Outcome (Option (List UInt16))} {o' : Objects} (h : MeasuresGroups t verdict down g o es e o') :
    e ≠ .unfinished := by
  cases h with
  | panics | nilSpec | crashes | givesUp => nofun
  | measures n sp _ o1 _ es e h hv hs =>
    refine no_unfinished_map _ (no_unfinished_each (fun j o es e o' h => ?_) hs)
    refine no_unfinished_each (fun c o es e o' h => ?_) h
    refine no_unfinished_each (fun k o es e o' h => ?_) h
    cases h <;> nofun

theorem lengths_append {N : Nat} {es1 es2 : List (CallEvent ι ν ε)} (h : LengthsWithin N (es1 ++ es2)) :
    LengthsWithin N es1 ∧ LengthsWithin N es2 := by
  unfold LengthsWithin at h
  simp only [List.filterMap_append, List.mem_append] at h
  exact ⟨fun n hn => h n (.inl hn), fun n hn => h n (.inr hn)⟩

theorem seeks_finish {t cols sepLen maxWidth : Nat} {down : Nat → Nat → Nat → List Nat}
    {fuel g N : Nat} {w : Option (List UInt16)} {o : Objects} {es : List (CallEvent ι ν ε)}
    {e : Outcome (Nat × Option (List UInt16))} {o' : Objects}
    (h : Seeks t cols sepLen maxWidth verdictV down fuel g w o es e o') (hN : LengthsWithin N es) (hf : N < g + fuel)
    (h0 : 0 < fuel) : e ≠ .unfinished := by
  induction h with
  | unfinished => omega
  | cut fuel g w _ _ _ _ _ h hc =>
    cases hc with
    | panicked => nofun
    | unfinished => exact absurd rfl (no_unfinished_measures h)
  | givesUp => nofun
  | tooWide => nofun
  | fits fuel g w ws _ _ _ _ _ _ h hw hs ih =>
    obtain ⟨h1, h2⟩ := lengths_append hN
    have := measured_within (Nat.succ_pos g) h h1
    exact ih h2 (by omega) (by omega)

theorem merges_finish {t : Nat} {arg : Int} {sep : GoString}
    {down onLine : Nat → Nat → Nat → List Nat} {compact : Bool} {fuel N : Nat} {o : Objects}
    {es : List (CallEvent ι ν ε)} {e : Outcome Unit} {o' : Objects}
    (h : Merges t arg sep verdictV down onLine compact fuel o es e o') (hN : LengthsWithin N es) (hf : N ≤ fuel)
    (h0 : 0 < fuel) : e ≠ .unfinished := by
  cases h with
  | nilSpec => nofun
  | nilColumn => nofun
  | zero => nofun
  | plain sp _ _ _ _ h hn hp hc hr => exact no_unfinished_prints hr
  | compact sp _ _ _ _ h hn hp hc hr =>
    cases hr with
    | goesOn a _ _ _ _ _ _ h hs => exact no_unfinished_prints hs
    | cut _ _ _ _ _ h hc =>
      cases hc with
      | panicked => nofun
      | unfinished =>
        refine absurd rfl (seeks_finish h hN ?_ h0)
        have : 1 ≤ plainGroups (clamped arg) sep.length (pitchNow t o (o.columns sp) sep.length) := Nat.le_max_left ..
        omega

/-- Without a search there is nothing to wait for. -/
theorem plain_finish {t : Nat} {arg : Int} {sep : GoString} {verdict : Int → Nat → Verdict}
    {down onLine : Nat → Nat → Nat → List Nat} {fuel : Nat} {o : Objects}
    {es : List (CallEvent ι ν ε)} {e : Outcome Unit} {o' : Objects}
    (h : Merges t arg sep verdict down onLine false fuel o es e o') : e ≠ .unfinished := by
  cases h with
  | nilSpec => nofun
  | nilColumn => nofun
  | zero => nofun
  | plain sp _ _ _ _ h hn hp hc hr => exact no_unfinished_prints hr
  | compact sp _ _ _ _ h hn hp hc hr => cases hc

end GoTable
