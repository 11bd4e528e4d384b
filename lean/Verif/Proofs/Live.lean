import Verif.Spec.Live
import Verif.Proofs.Talk
import Verif.Proofs.Reenter
/-!
# Proofs: merges with user code that uses the table
-/

namespace GoTable
open Spec

variable {ι ν ε α β γ δ : Type}

/-! ## Sequencing -/

theorem chat_bind_ret (p : Chat ι ν ε α) : p.bind .ret = p := by
  induction p with
  | ret a o => rfl
  | panic why o => rfl
  | unfinished o => rfl
  | value g item o k ih => simp only [Chat.bind, ih]
  | format g item v o k ih => simp only [Chat.bind, ih]
  | valueString g name item o k ih => simp only [Chat.bind, ih]
  | align al text w o k ih => simp only [Chat.bind, ih]
  | len o k ih => simp only [Chat.bind, ih]
  | get i o k ih => simp only [Chat.bind, ih]
  | write text o k ih => simp only [Chat.bind, ih]

theorem chat_bind_assoc (p : Chat ι ν ε α) (g : α → Objects → Chat ι ν ε β) (h : β → Objects → Chat ι ν ε γ) :
    (p.bind g).bind h = p.bind fun a o => (g a o).bind h := by
  induction p with
  | ret a o => rfl
  | panic why o => rfl
  | unfinished o => rfl
  | value g item o k ih => simp only [Chat.bind, ih]
  | format g item v o k ih => simp only [Chat.bind, ih]
  | valueString g name item o k ih => simp only [Chat.bind, ih]
  | align al text w o k ih => simp only [Chat.bind, ih]
  | len o k ih => simp only [Chat.bind, ih]
  | get i o k ih => simp only [Chat.bind, ih]
  | write text o k ih => simp only [Chat.bind, ih]

instance : LawfulMonad (Live ι ν ε) := LawfulMonad.mk'
  (id_map := fun p => funext fun o => chat_bind_ret (p o))
  (pure_bind := fun _ _ => rfl)
  (bind_assoc := fun p g h => funext fun o => chat_bind_assoc (p o) g h)

/-- What a part of a method does, by its calls. -/
def runOf (p : Live ι ν ε α) : Run ι ν ε α := fun o es e o' => Chats (p o) es e o'

theorem run_ext {R S : Run ι ν ε α} (h : ∀ o es e o', R o es e o' ↔ S o es e o') : R = S := by
  funext o es e o'
  exact propext (h o es e o')

theorem then_iff {R : Run ι ν ε α} {S : α → Run ι ν ε β} {o : Objects} {es : List (CallEvent ι ν ε)} {e : Outcome β}
    {o' : Objects} : Then R S o es e o' ↔
    (∃ a es1 es2 o1, es = es1 ++ es2 ∧ R o es1 (.returned a) o1 ∧ S a o1 es2 e o') ∨ ∃ e1, R o es e1 o' ∧ BreaksOff e1 e := by
  constructor
  · rintro (⟨a, _, o1, _, es1, es2, _, h, hs⟩ | ⟨_, _, _, e1, _, h, hc⟩)
    · exact .inl ⟨a, es1, es2, o1, rfl, h, hs⟩
    · exact .inr ⟨e1, h, hc⟩
  · rintro (⟨a, es1, es2, o1, rfl, h, hs⟩ | ⟨e1, h, hc⟩)
    · exact .goesOn _ _ _ _ _ _ _ h hs
    · exact .cut _ _ _ _ _ h hc

theorem chats_then {p : Chat ι ν ε α} {g : α → Objects → Chat ι ν ε β} {es : List (CallEvent ι ν ε)} {e : Outcome β}
    {o' : Objects} : Chats (p.bind g) es e o' ↔
    (∃ a es1 es2 o1, es = es1 ++ es2 ∧ Chats p es1 (.returned a) o1 ∧ Chats (g a o1) es2 e o') ∨
      ∃ e1, Chats p es e1 o' ∧ BreaksOff e1 e := by
  constructor
  · intro h
    induction p generalizing es with
    | ret a o => exact .inl ⟨a, [], es, o, rfl, .ret _ _, h⟩
    | panic why o => cases h; exact .inr ⟨_, .panic _ _, .panicked _⟩
    | unfinished o => cases h; exact .inr ⟨_, .unfinished _, .unfinished⟩
    | value x item o k ih =>
      cases h with | value r o1 h => ?_
      rcases ih r o1 h with ⟨a, es1, es2, o2, rfl, h1, h2⟩ | ⟨e1, h1, h2⟩
      · exact .inl ⟨a, _ :: es1, es2, o2, rfl, .value _ _ h1, h2⟩
      · exact .inr ⟨e1, .value _ _ h1, h2⟩
    | format x item v o k ih =>
      cases h with | format r o1 h => ?_
      rcases ih r o1 h with ⟨a, es1, es2, o2, rfl, h1, h2⟩ | ⟨e1, h1, h2⟩
      · exact .inl ⟨a, _ :: es1, es2, o2, rfl, .format _ _ h1, h2⟩
      · exact .inr ⟨e1, .format _ _ h1, h2⟩
    | valueString x name item o k ih =>
      cases h with | valueString r o1 h => ?_
      rcases ih r o1 h with ⟨a, es1, es2, o2, rfl, h1, h2⟩ | ⟨e1, h1, h2⟩
      · exact .inl ⟨a, _ :: es1, es2, o2, rfl, .valueString _ _ h1, h2⟩
      · exact .inr ⟨e1, .valueString _ _ h1, h2⟩
    | align al text w o k ih =>
      cases h with | align r o1 h => ?_
      rcases ih r o1 h with ⟨a, es1, es2, o2, rfl, h1, h2⟩ | ⟨e1, h1, h2⟩
      · exact .inl ⟨a, _ :: es1, es2, o2, rfl, .align _ _ h1, h2⟩
      · exact .inr ⟨e1, .align _ _ h1, h2⟩
    | len o k ih =>
      cases h with | len r o1 h => ?_
      rcases ih r o1 h with ⟨a, es1, es2, o2, rfl, h1, h2⟩ | ⟨e1, h1, h2⟩
      · exact .inl ⟨a, _ :: es1, es2, o2, rfl, .len _ _ h1, h2⟩
      · exact .inr ⟨e1, .len _ _ h1, h2⟩
    | get i o k ih =>
      cases h with | get r o1 h => ?_
      rcases ih r o1 h with ⟨a, es1, es2, o2, rfl, h1, h2⟩ | ⟨e1, h1, h2⟩
      · exact .inl ⟨a, _ :: es1, es2, o2, rfl, .get _ _ h1, h2⟩
      · exact .inr ⟨e1, .get _ _ h1, h2⟩
    | write text o k ih =>
      cases h with | write r o1 h => ?_
      rcases ih r o1 h with ⟨a, es1, es2, o2, rfl, h1, h2⟩ | ⟨e1, h1, h2⟩
      · exact .inl ⟨a, _ :: es1, es2, o2, rfl, .write _ _ h1, h2⟩
      · exact .inr ⟨e1, .write _ _ h1, h2⟩
  · rintro (⟨a, es1, es2, o1, rfl, h1, h2⟩ | ⟨e1, h1, h2⟩)
    · generalize he : Outcome.returned a = e1 at h1
      induction h1 with
      | ret a' o => cases he; exact h2
      | panic why o => cases he
      | unfinished o => cases he
      | value r o' h ih => exact .value _ _ (ih h2 he)
      | format r o' h ih => exact .format _ _ (ih h2 he)
      | valueString r o' h ih => exact .valueString _ _ (ih h2 he)
      | align r o' h ih => exact .align _ _ (ih h2 he)
      | len r o' h ih => exact .len _ _ (ih h2 he)
      | get r o' h ih => exact .get _ _ (ih h2 he)
      | write r o' h ih => exact .write _ _ (ih h2 he)
    · induction h1 with
      | ret a' o => cases h2
      | panic why o => cases h2; exact .panic _ _
      | unfinished o => cases h2; exact .unfinished _
      | value r o' h ih => exact .value _ _ (ih h2)
      | format r o' h ih => exact .format _ _ (ih h2)
      | valueString r o' h ih => exact .valueString _ _ (ih h2)
      | align r o' h ih => exact .align _ _ (ih h2)
      | len r o' h ih => exact .len _ _ (ih h2)
      | get r o' h ih => exact .get _ _ (ih h2)
      | write r o' h ih => exact .write _ _ (ih h2)

theorem runOf_bind (p : Live ι ν ε α) (g : α → Live ι ν ε β) :
    runOf (p >>= g) = Then (runOf p) fun a => runOf (g a) :=
  run_ext fun o _ _ _ => (chats_then (p := p o) (g := g)).trans
    (then_iff (R := runOf p) (S := fun a => runOf (g a))).symm

/-- A part whose value goes through `φ`. -/
def Mapped (φ : α → β) (R : Run ι ν ε α) : Run ι ν ε β := fun o es e o' => ∃ e1, R o es e1 o' ∧ e = e1.map φ

theorem runOf_pure (a : α) {o : Objects} {es : List (CallEvent ι ν ε)} {e : Outcome α} {o' : Objects} :
    runOf (pure a : Live ι ν ε α) o es e o' ↔ es = [] ∧ e = .returned a ∧ o' = o := by
  constructor
  · intro h
    cases h
    exact ⟨rfl, rfl, rfl⟩
  · rintro ⟨rfl, rfl, rfl⟩
    exact .ret _ _

theorem cut_map {e1 : Outcome α} {e : Outcome β} (h : BreaksOff e1 e) (φ : α → β) : e = e1.map φ := by
  cases h <;> rfl

theorem then_pure (R : Run ι ν ε α) (φ : α → β) : Then R (fun a => runOf (pure (φ a))) = Mapped φ R := by
  refine run_ext fun o es e o' => then_iff.trans ?_
  constructor
  · rintro (⟨a, es1, es2, o1, rfl, h, hs⟩ | ⟨e1, h, hc⟩)
    · obtain ⟨rfl, rfl, rfl⟩ := (runOf_pure _).mp hs
      exact ⟨_, by rwa [List.append_nil], rfl⟩
    · exact ⟨e1, h, cut_map hc φ⟩
  · rintro ⟨e1, h, rfl⟩
    cases e1 with
    | returned a => exact .inl ⟨a, es, [], o', by simp, h, (runOf_pure _).mpr ⟨rfl, rfl, rfl⟩⟩
    | panicked why => exact .inr ⟨_, h, .panicked _⟩
    | unfinished => exact .inr ⟨_, h, .unfinished⟩

theorem outcome_map_map (φ : α → β) (ψ : β → γ) (e : Outcome α) : (e.map φ).map ψ = e.map fun a => ψ (φ a) := by
  cases e <;> rfl

theorem mapped_mapped (R : Run ι ν ε α) (φ : α → β) (ψ : β → γ) :
    Mapped ψ (Mapped φ R) = Mapped (fun a => ψ (φ a)) R := by
  refine run_ext fun o es e o' => ?_
  constructor
  · rintro ⟨_, ⟨e1, h, rfl⟩, rfl⟩
    exact ⟨e1, h, outcome_map_map φ ψ e1⟩
  · rintro ⟨e1, h, rfl⟩
    exact ⟨_, ⟨e1, h, rfl⟩, (outcome_map_map φ ψ e1).symm⟩

theorem outcome_map_id (e : Outcome α) : e.map (fun a => a) = e := by cases e <;> rfl

theorem mapped_id (R : Run ι ν ε α) : Mapped (fun a => a) R = R := by
  refine run_ext fun o es e o' => ?_
  constructor
  · rintro ⟨e1, h, rfl⟩
    rwa [outcome_map_id]
  · intro h
    exact ⟨e, h, (outcome_map_id e).symm⟩

theorem then_mapped (R : Run ι ν ε α) (φ : α → β) (S : β → Run ι ν ε γ) :
    Then (Mapped φ R) S = Then R fun a => S (φ a) := by
  refine run_ext fun o es e o' => then_iff.trans (Iff.trans ?_ then_iff.symm)
  constructor
  · rintro (⟨a, es1, es2, o1, rfl, ⟨e1, h, he⟩, hs⟩ | ⟨_, ⟨e1, h, rfl⟩, hc⟩)
    · cases e1 <;> cases he
      exact .inl ⟨_, es1, es2, o1, rfl, h, hs⟩
    · cases e1 with
      | returned a => cases hc
      | panicked why => cases hc; exact .inr ⟨_, h, .panicked _⟩
      | unfinished => cases hc; exact .inr ⟨_, h, .unfinished⟩
  · rintro (⟨a, es1, es2, o1, rfl, h, hs⟩ | ⟨e1, h, hc⟩)
    · exact .inl ⟨_, es1, es2, o1, rfl, ⟨_, h, rfl⟩, hs⟩
    · refine .inr ⟨e1.map φ, ⟨_, h, rfl⟩, ?_⟩
      cases hc
      · exact .panicked _
      · exact .unfinished

theorem mapped_then (R : Run ι ν ε α) (S : α → Run ι ν ε β) (φ : β → γ) :
    Mapped φ (Then R S) = Then R fun a => Mapped φ (S a) := by
  refine run_ext fun o es e o' => ?_
  constructor
  · rintro ⟨e1, h, rfl⟩
    rcases then_iff.mp h with ⟨a, es1, es2, o1, rfl, h1, hs⟩ | ⟨e1, h1, hc⟩
    · exact .goesOn _ _ _ _ _ _ _ h1 ⟨_, hs, rfl⟩
    · cases hc
      · exact .cut _ _ _ _ _ h1 (.panicked _)
      · exact .cut _ _ _ _ _ h1 .unfinished
  · intro h
    rcases then_iff.mp h with ⟨a, es1, es2, o1, rfl, h1, ⟨e1, hs, rfl⟩⟩ | ⟨e1, h1, hc⟩
    · exact ⟨_, .goesOn _ _ _ _ _ _ _ h1 hs, rfl⟩
    · cases hc
      · exact ⟨.panicked _, .cut _ _ _ _ _ h1 (.panicked _), rfl⟩
      · exact ⟨.unfinished, .cut _ _ _ _ _ h1 .unfinished, rfl⟩

theorem each_cons (R : γ → Run ι ν ε α) (x : γ) (xs : List γ) :
    Each R (x :: xs) = Then (R x) fun a => Mapped (a :: ·) (Each R xs) := by
  refine run_ext fun o es e o' => Iff.trans ?_ then_iff.symm
  constructor
  · intro h
    cases h with
    | cons _ _ a _ o1 _ es1 es2 e1 h hs => exact .inl ⟨a, es1, es2, o1, rfl, h, e1, hs, rfl⟩
    | cut _ _ _ _ _ e1 _ h hc => exact .inr ⟨e1, h, hc⟩
  · rintro (⟨a, es1, es2, o1, rfl, h, e1, hs, rfl⟩ | ⟨e1, h, hc⟩)
    · exact .cons _ _ _ _ _ _ _ _ _ h hs
    · exact .cut _ _ _ _ _ _ _ h hc

theorem each_nil (R : γ → Run ι ν ε α) : Each R [] = runOf (pure []) := by
  refine run_ext fun o es e o' => Iff.trans ?_ (runOf_pure _).symm
  constructor
  · intro h; cases h; exact ⟨rfl, rfl, rfl⟩
  · rintro ⟨rfl, rfl, rfl⟩; exact .nil _

theorem runOf_mapM (p : γ → Live ι ν ε α) (l : List γ) : runOf (l.mapM p) = Each (fun x => runOf (p x)) l := by
  induction l with
  | nil => rw [List.mapM_nil, each_nil]
  | cons x xs ih =>
    rw [List.mapM_cons, runOf_bind, each_cons]
    congr 1
    funext a
    rw [runOf_bind, ih]
    exact then_pure _ _

theorem mapped_pure (φ : α → β) (a : α) : Mapped φ (runOf (pure a : Live ι ν ε α)) = runOf (pure (φ a)) := by
  refine run_ext fun o es e o' => Iff.trans ?_ (runOf_pure _).symm
  constructor
  · rintro ⟨e1, h, rfl⟩
    obtain ⟨rfl, rfl, rfl⟩ := (runOf_pure _).mp h
    exact ⟨rfl, rfl, rfl⟩
  · rintro ⟨rfl, rfl, rfl⟩
    exact ⟨_, (runOf_pure _).mpr ⟨rfl, rfl, rfl⟩, rfl⟩

theorem each_mapped (R : γ → Run ι ν ε α) (φ : α → β) (l : List γ) :
    Each (fun x => Mapped φ (R x)) l = Mapped (List.map φ) (Each R l) := by
  induction l with
  | nil => rw [each_nil, each_nil, mapped_pure]; rfl
  | cons x xs ih =>
    rw [each_cons, each_cons, then_mapped, mapped_then, ih]
    congr 1
    funext a
    rw [mapped_mapped, mapped_mapped]
    rfl

theorem each_congr {R S : γ → Run ι ν ε α} (l : List γ) (h : ∀ x ∈ l, R x = S x) : Each R l = Each S l := by
  induction l with
  | nil => rw [each_nil, each_nil]
  | cons x xs ih =>
    rw [each_cons, each_cons, h x (by simp), ih fun y hy => h y (by simp [hy])]

/-! ## Calls and readings -/

theorem runOf_callLen {o : Objects} {es : List (CallEvent ι ν ε)} {e : Outcome Int} {o' : Objects} :
    runOf callLen o es e o' ↔ (es = [.len o none o'] ∧ e = .panicked .passedOn) ∨
      ∃ n, es = [.len o (some n) o'] ∧ e = .returned n := by
  constructor
  · intro h
    cases h with | len r o1 h => ?_
    cases r with
    | none => cases h; exact .inl ⟨rfl, rfl⟩
    | some n => cases h; exact .inr ⟨n, rfl, rfl⟩
  · rintro (⟨rfl, rfl⟩ | ⟨n, rfl, rfl⟩)
    · exact .len none _ (.panic _ _)
    · exact .len (some n) _ (.ret _ _)

theorem runOf_callGet {i : Int} {o : Objects} {es : List (CallEvent ι ν ε)} {e : Outcome Slice} {o' : Objects} :
    runOf (callGet i) o es e o' ↔ (es = [.get i o none o'] ∧ e = .panicked .passedOn) ∨
      ∃ s, es = [.get i o (some s) o'] ∧ e = .returned s := by
  constructor
  · intro h
    cases h with | get r o1 h => ?_
    cases r with
    | none => cases h; exact .inl ⟨rfl, rfl⟩
    | some n => cases h; exact .inr ⟨n, rfl, rfl⟩
  · rintro (⟨rfl, rfl⟩ | ⟨n, rfl, rfl⟩)
    · exact .get none _ (.panic _ _)
    · exact .get (some n) _ (.ret _ _)

theorem runOf_callWrite {text : GoString} {o : Objects} {es : List (CallEvent ι ν ε)} {e : Outcome Bool}
    {o' : Objects} :
    runOf (callWrite text) o es e o' ↔ (es = [.write text o none o'] ∧ e = .panicked .passedOn) ∨
      ∃ b, es = [.write text o (some b) o'] ∧ e = .returned b := by
  constructor
  · intro h
    cases h with | write r o1 h => ?_
    cases r with
    | none => cases h; exact .inl ⟨rfl, rfl⟩
    | some n => cases h; exact .inr ⟨n, rfl, rfl⟩
  · rintro (⟨rfl, rfl⟩ | ⟨n, rfl, rfl⟩)
    · exact .write none _ (.panic _ _)
    · exact .write (some n) _ (.ret _ _)

/-- A call that replies `some x`, and what follows. -/
theorem then_callLen {S : Int → Run ι ν ε β} {o : Objects} {es : List (CallEvent ι ν ε)} {e : Outcome β}
    {o' : Objects} : Then (runOf callLen) S o es e o' ↔ (es = [.len o none o'] ∧ e = .panicked .passedOn) ∨
      ∃ n o1 es1, es = .len o (some n) o1 :: es1 ∧ S n o1 es1 e o' := by
  rw [then_iff]
  constructor
  · rintro (⟨n, es1, es2, o1, rfl, h, hs⟩ | ⟨e1, h, hc⟩)
    · rcases runOf_callLen.mp h with ⟨_, he⟩ | ⟨m, rfl, he⟩ <;> cases he
      exact .inr ⟨_, _, _, rfl, hs⟩
    · rcases runOf_callLen.mp h with ⟨rfl, rfl⟩ | ⟨m, rfl, rfl⟩ <;> cases hc
      exact .inl ⟨rfl, rfl⟩
  · rintro (⟨rfl, rfl⟩ | ⟨n, o1, es1, rfl, h⟩)
    · exact .inr ⟨_, runOf_callLen.mpr (.inl ⟨rfl, rfl⟩), .panicked _⟩
    · exact .inl ⟨n, [_], es1, o1, rfl, runOf_callLen.mpr (.inr ⟨n, rfl, rfl⟩), h⟩

theorem then_callGet {i : Int} {S : Slice → Run ι ν ε β} {o : Objects} {es : List (CallEvent ι ν ε)} {e : Outcome β}
    {o' : Objects} : Then (runOf (callGet i)) S o es e o' ↔ (es = [.get i o none o'] ∧ e = .panicked .passedOn) ∨
      ∃ s o1 es1, es = .get i o (some s) o1 :: es1 ∧ S s o1 es1 e o' := by
  rw [then_iff]
  constructor
  · rintro (⟨n, es1, es2, o1, rfl, h, hs⟩ | ⟨e1, h, hc⟩)
    · rcases runOf_callGet.mp h with ⟨_, he⟩ | ⟨m, rfl, he⟩ <;> cases he
      exact .inr ⟨_, _, _, rfl, hs⟩
    · rcases runOf_callGet.mp h with ⟨rfl, rfl⟩ | ⟨m, rfl, rfl⟩ <;> cases hc
      exact .inl ⟨rfl, rfl⟩
  · rintro (⟨rfl, rfl⟩ | ⟨n, o1, es1, rfl, h⟩)
    · exact .inr ⟨_, runOf_callGet.mpr (.inl ⟨rfl, rfl⟩), .panicked _⟩
    · exact .inl ⟨n, [_], es1, o1, rfl, runOf_callGet.mpr (.inr ⟨n, rfl, rfl⟩), h⟩

theorem columnsNow_some {t sp : Nat} {o : Objects} (h : o.spec t = some sp) :
    (columnsNow t : Live ι ν ε Slice) o = .ret (o.columns sp) o := by
  simp only [columnsNow, Objects.columnsOf, h, Option.map_some]

theorem columnsNow_none {t : Nat} {o : Objects} (h : o.spec t = none) :
    (columnsNow t : Live ι ν ε Slice) o = .panic (.onNil .deref) o := by
  simp only [columnsNow, Objects.columnsOf, h, Option.map_none]

/-! ## Printing -/

/-- The width of a cell, as the model and as the specification have it. -/
def SameWidth (gw : Nat → Live ι ν ε UInt16) (W : Objects → Nat → Except Fault UInt16) : Prop :=
  ∀ o c, gw c o = match W o c with
    | .ok w => .ret w o
    | .error why => .panic why o

theorem readWidth_eq (m : Option WidthMap) (name : GoString) : readWidth m name = (m.map fun m => m name).getD 0 := by
  cases m <;> rfl

theorem sameWidth_table (t j : Nat) : SameWidth (fun c => (getWidthTableL t c j : Live ι ν ε UInt16)) (widthNow t) := by
  intro o c
  unfold widthNow
  show (columnsNow t o).bind _ = _
  cases h : o.spec t with
  | none => rw [columnsNow_none h]; rfl
  | some sp =>
    rw [columnsNow_some h]
    simp only [Chat.bind]
    by_cases hc : c < (o.columns sp).len
    · simp only [hc, if_true]
      show (columnNow (o.columns sp) c o).bind _ = _
      unfold columnNow
      cases o.element (o.columns sp).array ((o.columns sp).first + c) with
      | none => rfl
      | some col =>
        show Chat.ret _ _ = Chat.ret _ _
        rw [readWidth_eq]
    · simp only [hc, if_false]
      rfl

theorem sameWidth_found (ws : List UInt16) (cols j : Nat) :
    SameWidth (fun c => (getWidthCompactL ws cols c j : Live ι ν ε UInt16)) (fun _ => widthFound ws cols j) := by
  intro o c
  simp only [getWidthCompactL, widthFound]
  cases ws[j * cols + c]? <;> rfl

theorem alignmentLeftOf_eq (m : UInt16) (text : GoString) (w : UInt16) : alignmentLeftOf m text w = leftOf m text w := by
  unfold alignmentLeftOf leftOf spaces
  by_cases h : m ≥ w
  · have : w.toNat ≤ m.toNat := UInt16.le_iff_toNat_le.mp h
    rw [if_pos h, Nat.sub_eq_zero_of_le this]
    simp
  · have : m ≤ w := UInt16.le_of_lt (UInt16.not_le.mp h)
    rw [if_neg h, UInt16.toNat_sub_of_le _ _ this]

/-- One round of the loop over the columns. -/
def cellL (gw : Nat → Live ι ν ε UInt16) (colN : Nat) (item s : Slice) (colI : Nat) : Live ι ν ε GoString := do
  let col ← columnNow s colI
  let str ← cellNow item colI
  let w ← gw colI
  let text ← match col.alignment with
    | none => pure (alignmentLeftOf ((← here).answer colI str) str w)
    | some al => callAlign al str w
  if colI < colN then pure text else stop (.run .index)

theorem cellL_eq (gw : Nat → Live ι ν ε UInt16) (W : Objects → Nat → Except Fault UInt16)
    (hW : SameWidth gw W) (colN : Nat) (item s : Slice) (c : Nat) (o : Objects) :
    cellL gw colN item s c o =
      match o.element s.array (s.first + c) with
      | none => .panic (.onNil .deref) o
      | some col =>
        if c < item.len then
          match W o c with
          | .error why => .panic why o
          | .ok w =>
            match (o.column col).alignment with
            | none => if c < colN then .ret (leftOf (o.answer c (o.strings item.array (item.first + c)))
                (o.strings item.array (item.first + c)) w) o
              else .panic (.run .index) o
            | some al => .align al (o.strings item.array (item.first + c)) w o fun r o =>
              match r with
              | none => .panic .passedOn o
              | some text => if c < colN then .ret text o else .panic (.run .index) o
        else .panic (.run .index) o := by
  show (columnNow s c o).bind _ = _
  unfold columnNow
  cases o.element s.array (s.first + c) with
  | none => rfl
  | some col =>
    show (cellNow item c o).bind _ = _
    unfold cellNow Slice.get?
    by_cases hr : c < item.len
    swap
    · simp only [hr, if_false]; rfl
    · simp only [hr, if_true]
      show (gw c o).bind _ = _
      rw [hW o c]
      cases W o c with
      | error why => rfl
      | ok w =>
        simp only [Chat.bind]
        cases (o.column col).alignment with
        | none =>
          rw [← alignmentLeftOf_eq]
          by_cases hc : c < colN <;> simp only [hc, if_true, if_false] <;> rfl
        | some al =>
          show Chat.align _ _ _ _ _ = Chat.align _ _ _ _ _
          congr 1
          funext r o
          cases r with
          | none => rfl
          | some text => by_cases hc : c < colN <;> simp only [hc, if_true, if_false] <;> rfl

theorem runOf_cellL (gw : Nat → Live ι ν ε UInt16) (W : Objects → Nat → Except Fault UInt16)
    (hW : SameWidth gw W) (colN : Nat) (item s : Slice) (c : Nat) :
    runOf (cellL gw colN item s c) = MakesCell colN W s item c := by
  refine run_ext fun o es e o' => ?_
  show Chats (cellL gw colN item s c o) es e o' ↔ _
  rw [cellL_eq gw W hW]
  constructor
  · intro h
    split at h
    · rename_i hcol; cases h; exact .nilColumn hcol
    rename_i col hcol
    split at h
    swap
    · rename_i hr; cases h; exact .short _ hcol (by omega)
    rename_i hr
    split at h
    · rename_i hw; cases h; exact .noWidth _ _ hcol hr hw
    rename_i w hw
    split at h
    · rename_i ha
      split at h
      · rename_i hc; cases h; exact .left _ _ hcol hr hw ha hc
      · rename_i hc; cases h; exact .leftNoRoom _ _ hcol hr hw ha (by omega)
    · rename_i al ha
      cases h with | align r o1 h => ?_
      cases r with
      | none => cases h; exact .alignPanics _ _ _ _ hcol hr hw ha
      | some text =>
        simp only [] at h
        split at h
        · rename_i hc; cases h; exact .aligned _ _ _ _ _ hcol hr hw ha hc
        · rename_i hc; cases h; exact .alignedNoRoom _ _ _ _ _ hcol hr hw ha (by omega)
  · intro h
    cases h with
    | nilColumn h => simp only [h]; exact .panic _ _
    | short col h hr => simp only [h, Nat.not_lt.mpr hr, if_false]; exact .panic _ _
    | noWidth col why h hr hw => simp only [h, hr, if_true, hw]; exact .panic _ _
    | left col w h hr hw ha hc => simp only [h, hr, if_true, hw, ha, hc]; exact .ret _ _
    | leftNoRoom col w h hr hw ha hc =>
      simp only [h, hr, if_true, hw, ha, Nat.not_lt.mpr hc, if_false]; exact .panic _ _
    | aligned col al w text _ h hr hw ha hc =>
      simp only [h, hr, if_true, hw, ha]
      exact .align _ _ (by simp only [hc, if_true]; exact .ret _ _)
    | alignedNoRoom col al w text _ h hr hw ha hc =>
      simp only [h, hr, if_true, hw, ha]
      exact .align _ _ (by simp only [Nat.not_lt.mpr hc, if_false]; exact .panic _ _)
    | alignPanics col al w _ h hr hw ha =>
      simp only [h, hr, if_true, hw, ha]
      exact .align _ _ (.panic _ _)

theorem renderCellsL_step (gw : Nat → Nat → Live ι ν ε UInt16) (j colN : Nat) (item s : Slice) (c : Nat)
    (hc : c < s.len) : renderCellsL gw j colN item s c =
    cellL (fun c => gw c j) colN item s c >>= fun text =>
      renderCellsL gw j colN item s (c + 1) >>= fun rest => pure (text :: rest) := by
  rw [renderCellsL, if_pos hc]
  unfold cellL
  simp only [bind_assoc]
  congr 1; funext col
  congr 1; funext str
  congr 1; funext w
  cases col.alignment with
  | none =>
    by_cases h : c < colN
    · simp only [h, if_true, pure_bind, bind_assoc]
    · simp only [h, if_false, pure_bind, bind_assoc]; rfl
  | some al =>
    by_cases h : c < colN
    · simp only [h, if_true, pure_bind, bind_assoc]
    · simp only [h, if_false, bind_assoc]; rfl

theorem each_length {R : γ → Run ι ν ε α} {l : List γ} {o o' : Objects} {es : List (CallEvent ι ν ε)}
    {e : Outcome (List α)} (h : Each R l o es e o') {xs : List α} (he : e = .returned xs) : xs.length = l.length := by
  induction h generalizing xs with
  | nil o => cases he; rfl
  | cons x l a o o1 o2 es1 es2 e h hs ih =>
    cases e <;> cases he
    rw [List.length_cons, List.length_cons, ih rfl]
  | cut x l o o1 es e e' h hc => subst he; cases hc

theorem mapped_congr {R : Run ι ν ε α} {φ ψ : α → β} (h : ∀ o es a o', R o es (.returned a) o' → φ a = ψ a) :
    Mapped φ R = Mapped ψ R := by
  refine run_ext fun o es e o' => ?_
  constructor
  · rintro ⟨e1, h1, rfl⟩
    refine ⟨e1, h1, ?_⟩
    cases e1 with
    | returned a => simp only [Outcome.map, h _ _ _ _ h1]
    | panicked why => rfl
    | unfinished => rfl
  · rintro ⟨e1, h1, rfl⟩
    refine ⟨e1, h1, ?_⟩
    cases e1 with
    | returned a => simp only [Outcome.map, h _ _ _ _ h1]
    | panicked why => rfl
    | unfinished => rfl

theorem runOf_renderCellsL (gw : Nat → Nat → Live ι ν ε UInt16) (j : Nat)
    (W : Objects → Nat → Except Fault UInt16) (hW : SameWidth (fun c => gw c j) W) (colN : Nat) (item s : Slice)
    (c : Nat) (hc : c ≤ s.len) :
    runOf (renderCellsL gw j colN item s c) =
      Mapped (· ++ List.replicate (colN - s.len) []) (Each (MakesCell colN W s item) (List.range' c (s.len - c))) := by
  generalize hd : s.len - c = d
  induction d generalizing c with
  | zero =>
    have : c = s.len := by omega
    subst this
    rw [renderCellsL, if_neg (Nat.lt_irrefl _)]
    show _ = Mapped _ (Each _ [])
    rw [each_nil, mapped_pure]
    rfl
  | succ d ih =>
    rw [renderCellsL_step gw j colN item s c (by omega), runOf_bind, runOf_cellL _ W hW, List.range'_succ, each_cons,
      mapped_then]
    congr 1
    funext text
    rw [runOf_bind, ih (c + 1) (by omega) (by omega), then_mapped, then_pure, mapped_mapped]
    rfl

theorem runOf_item (t colN : Nat) (gw : Nat → Nat → Live ι ν ε UInt16) (j : Nat)
    (W : Objects → Nat → Except Fault UInt16) (hW : SameWidth (fun c => gw c j) W) (k : Nat) :
    runOf (do
      let item ← callGet k
      let s ← columnsNow t
      let cell ← renderCellsL gw j colN item s 0
      return join innerSep cell) = MakesItem (ι := ι) (ν := ν) (ε := ε) t colN W k := by
  refine run_ext fun o es e o' => ?_
  rw [runOf_bind, then_callGet]
  have key : ∀ (row : Slice) (sp : Nat) (o1 : Objects), o1.spec t = some sp → ∀ es1 e o',
      runOf (columnsNow t >>= fun s => renderCellsL gw j colN row s 0 >>= fun cell => pure (join innerSep cell)) o1 es1 e o' ↔
      Mapped (fun texts => List.intercalate [0x20] (texts ++ List.replicate (colN - texts.length) []))
        (Each (MakesCell colN W (o1.columns sp) row) (List.range (o1.columns sp).len)) o1 es1 e o' := by
    intro row sp o1 hsp es1 e o'
    show Chats ((columnsNow t o1).bind _) es1 e o' ↔ _
    rw [columnsNow_some hsp]
    show runOf (renderCellsL gw j colN row (o1.columns sp) 0 >>= fun cell => pure (join innerSep cell)) o1 es1 e o' ↔ _
    rw [runOf_bind, runOf_renderCellsL gw j W hW colN row _ 0 (Nat.zero_le _), then_mapped, then_pure,
      Nat.sub_zero, ← List.range_eq_range']
    rw [mapped_congr (ψ := fun texts => List.intercalate [0x20] (texts ++ List.replicate (colN - texts.length) []))]
    intro o es xs o' h
    have := each_length h rfl
    rw [List.length_range] at this
    rw [join_eq, this]
    rfl
  constructor
  · rintro (⟨rfl, rfl⟩ | ⟨row, o1, es1, rfl, h⟩)
    · exact .panics _ _
    · cases hsp : o1.spec t with
      | none =>
        replace h : Chats ((columnsNow t o1).bind _) es1 e o' := h
        rw [columnsNow_none hsp] at h
        cases h
        exact .nilSpec _ _ _ hsp
      | some sp =>
        obtain ⟨e1, h1, rfl⟩ := (key row sp o1 hsp es1 e o').mp h
        exact .made _ _ _ _ _ _ _ hsp h1
  · intro h
    cases h with
    | panics => exact .inl ⟨rfl, rfl⟩
    | nilSpec row _ o1 hsp =>
      refine .inr ⟨row, _, [], rfl, ?_⟩
      show Chats ((columnsNow t o').bind _) _ _ _
      rw [columnsNow_none hsp]
      exact .panic _ _
    | made row sp _ o1 _ es1 e1 hsp hs => exact .inr ⟨row, o1, es1, rfl, (key row sp o1 hsp _ _ _).mpr ⟨e1, hs, rfl⟩⟩

theorem runOf_lineGroupsL (t colN : Nat) (gw : Nat → Nat → Live ι ν ε UInt16)
    (W : Nat → Objects → Nat → Except Fault UInt16) (hW : ∀ j, SameWidth (fun c => gw c j) (W j)) (n : Int)
    (index : Nat → Nat) (g j : Nat) :
    runOf (lineGroupsL t n gw colN index g j) =
      Mapped (fun texts => texts ++ if (shownFrom n.toNat index g j).length < g - j then [[]] else [])
        (Each (fun p : Nat × Nat => MakesItem t colN (W p.2) p.1) ((shownFrom n.toNat index g j).zipIdx j)) := by
  fun_induction shownFrom n.toNat index g j with
  | case1 j hj hn =>
    rw [lineGroupsL, if_pos hj]
    simp only []
    rw [if_pos (by omega), if_pos (by simp; omega)]
    show _ = Mapped _ (Each _ [])
    rw [each_nil, mapped_pure]
    rfl
  | case2 j hj hn ih =>
    have hstep : lineGroupsL t n gw colN index g j = (do
        let text ← (do
          let item ← callGet (index j)
          let s ← columnsNow t
          let cell ← renderCellsL gw j colN item s 0
          return join innerSep cell)
        let rest ← lineGroupsL t n gw colN index g (j + 1)
        return text :: rest) := by
      rw [lineGroupsL.eq_1 t n gw colN index g j, if_pos hj]
      simp only []
      rw [if_neg (by omega)]
      simp only [bind_assoc, pure_bind]
    rw [hstep, runOf_bind, runOf_item t colN gw j (W j) (hW j), List.zipIdx_cons, each_cons, mapped_then]
    congr 1
    funext text
    rw [runOf_bind, ih, then_mapped, then_pure, mapped_mapped]
    congr 1
    funext texts
    rw [List.length_cons, List.cons_append]
    have : ((shownFrom n.toNat index g (j + 1)).length < g - (j + 1)) ↔
      ((shownFrom n.toNat index g (j + 1)).length + 1 < g - j) := by omega
    simp only [this]
  | case3 j hj =>
    rw [lineGroupsL, if_neg hj, if_neg (by simp; omega)]
    show _ = Mapped _ (Each _ [])
    rw [each_nil, mapped_pure]
    rfl

theorem runOf_line (t colN : Nat) (gw : Nat → Nat → Live ι ν ε UInt16)
    (W : Nat → Objects → Nat → Except Fault UInt16) (hW : ∀ j, SameWidth (fun c => gw c j) (W j)) (n : Int)
    (sep : GoString) (index : Nat → Nat) (g : Nat) :
    runOf (do
      let parts ← lineGroupsL t n gw colN index g 0
      let failed ← callWrite (join sep parts ++ lit "\n")
      if failed then stop (.run .write) else pure ()) = WritesLine t colN W sep g (shownFrom n.toNat index g 0) := by
  rw [runOf_bind, runOf_lineGroupsL t colN gw W hW, then_mapped]
  refine run_ext fun o es e o' => then_iff.trans ?_
  simp only [Nat.sub_zero, runOf_bind, join_eq, lit_newline]
  constructor
  · rintro (⟨texts, es1, es2, o1, rfl, h, hs⟩ | ⟨e1, h, hc⟩)
    · have : ∃ reply, es2 = [.write (List.intercalate sep (texts ++
          if (shownFrom n.toNat index g 0).length < g then [[]] else []) ++ [0x0A]) o1 reply o'] ∧
          e = (match reply with
            | none => .panicked .passedOn
            | some true => .panicked (.run .write)
            | some false => .returned ()) := by
        rcases then_iff.mp hs with ⟨b, es3, es4, o2, rfl, h1, h2⟩ | ⟨e1, h1, h2⟩
        · rcases runOf_callWrite.mp h1 with ⟨_, he⟩ | ⟨b', rfl, he⟩ <;> cases he
          cases b with
          | true => cases h2; exact ⟨some true, rfl, rfl⟩
          | false => cases h2; exact ⟨some false, rfl, rfl⟩
        · rcases runOf_callWrite.mp h1 with ⟨rfl, rfl⟩ | ⟨b', rfl, rfl⟩ <;> cases h2
          exact ⟨none, rfl, rfl⟩
      obtain ⟨reply, rfl, rfl⟩ := this
      exact .writes _ _ _ _ _ _ h
    · exact .cut _ _ _ _ _ h hc
  · intro h
    cases h with
    | cut _ _ _ e1 _ h hc => exact .inr ⟨e1, h, hc⟩
    | writes texts reply _ o1 _ es1 h =>
      refine .inl ⟨texts, es1, _, o1, rfl, h, then_iff.mpr ?_⟩
      match reply with
      | none => exact .inr ⟨_, runOf_callWrite.mpr (.inl ⟨rfl, rfl⟩), .panicked _⟩
      | some true => exact .inl ⟨true, [_], [], _, rfl, runOf_callWrite.mpr (.inr ⟨true, rfl, rfl⟩), .panic _ _⟩
      | some false => exact .inl ⟨false, [_], [], _, rfl, runOf_callWrite.mpr (.inr ⟨false, rfl, rfl⟩), .ret _ _⟩

theorem runOf_writeLinesL (t colN : Nat) (gw : Nat → Nat → Live ι ν ε UInt16)
    (W : Nat → Objects → Nat → Except Fault UInt16) (hW : ∀ j, SameWidth (fun c => gw c j) (W j)) (n : Int)
    (sep : GoString) (index : Nat → Nat → Nat) (g L i : Nat) :
    runOf (writeLinesL sep (fun i => lineGroupsL t n gw colN (index i) g 0) L i) =
      Mapped (fun _ => ())
        (Each (fun i => WritesLine t colN W sep g (shownFrom n.toNat (index i) g 0)) (List.range' i (L - i))) := by
  generalize hd : L - i = d
  induction d generalizing i with
  | zero =>
    rw [writeLinesL, if_neg (by omega)]
    show _ = Mapped _ (Each _ [])
    rw [each_nil, mapped_pure]
  | succ d ih =>
    have hstep : writeLinesL sep (fun i => lineGroupsL t n gw colN (index i) g 0) L i = (do
        let _ ← (do
          let parts ← lineGroupsL t n gw colN (index i) g 0
          let failed ← callWrite (join sep parts ++ lit "\n")
          if failed then stop (.run .write) else pure ())
        writeLinesL sep (fun i => lineGroupsL t n gw colN (index i) g 0) L (i + 1)) := by
      rw [writeLinesL.eq_1 sep _ L i, if_pos (by omega)]
      simp only [bind_assoc]
      congr 1; funext parts
      congr 1; funext failed
      cases failed <;> rfl
    rw [hstep, runOf_bind, runOf_line t colN gw W hW, ih (i + 1) (by omega), List.range'_succ, each_cons, mapped_then]
    congr 1
    funext _
    rw [mapped_mapped]

theorem runOf_print (t colN : Nat) (gw : Nat → Nat → Live ι ν ε UInt16)
    (W : Nat → Objects → Nat → Except Fault UInt16) (hW : ∀ j, SameWidth (fun c => gw c j) (W j)) (sep : GoString)
    (index : Int → Nat → Nat → Nat) (g : Nat) (hg : 0 < g) (onLine : Nat → Nat → Nat → List Nat)
    (hi : ∀ n i, shownFrom n.toNat (index n i) g 0 = onLine n.toNat g i) :
    runOf (do
      let itemN ← callLen
      writeLinesL sep (fun i => lineGroupsL t itemN gw colN (index itemN i) g 0) (lineCountT itemN g).toNat 0) =
      Prints t colN W sep g onLine := by
  refine run_ext fun o es e o' => ?_
  rw [runOf_bind, then_callLen]
  have key : ∀ n, runOf (writeLinesL sep (fun i => lineGroupsL t n gw colN (index n i) g 0) (lineCountT n g).toNat 0) =
      Mapped (fun _ => ()) (Each (fun i => WritesLine t colN W sep g (onLine n.toNat g i))
        (List.range (linesClaimed n g))) := by
    intro n
    rw [runOf_writeLinesL t colN gw W hW, linesClaimed_eq n g hg, Nat.sub_zero, ← List.range_eq_range']
    simp only [hi]
  simp only [key]
  constructor
  · rintro (⟨rfl, rfl⟩ | ⟨n, o1, es1, rfl, e1, h, rfl⟩)
    · exact .panics _ _
    · exact .lines _ _ _ _ _ _ h
  · intro h
    cases h with
    | panics => exact .inl ⟨rfl, rfl⟩
    | lines n _ o1 _ es1 e1 h => exact .inr ⟨n, o1, es1, rfl, e1, h, rfl⟩

/-! ## Searching -/

theorem runOf_readsCell (c k : Nat) :
    runOf (callGet k >>= fun item => cellNow item c >>= fun s => here >>= fun o => pure (o.answer c s)) =
      ReadsCell (ι := ι) (ν := ν) (ε := ε) c k := by
  refine run_ext fun o es e o' => ?_
  rw [runOf_bind, then_callGet]
  have hcell : ∀ (row : Slice) (o : Objects),
      (cellNow row c >>= fun s => here >>= fun o => pure (o.answer c s) : Live ι ν ε UInt16) o =
      if c < row.len then .ret (o.answer c (o.strings row.array (row.first + c))) o else .panic (.run .index) o := by
    intro row o
    show (cellNow row c o).bind _ = _
    unfold cellNow Slice.get?
    by_cases hr : c < row.len <;> simp only [hr, if_true, if_false] <;> rfl
  constructor
  · rintro (⟨rfl, rfl⟩ | ⟨row, o1, es1, rfl, h⟩)
    · exact .panics _ _
    · replace h : Chats ((cellNow row c >>= fun s => here >>= fun o => pure (o.answer c s) : Live ι ν ε UInt16) o1) es1 e
        o' := h
      rw [hcell] at h
      by_cases hr : c < row.len
      · rw [if_pos hr] at h; cases h; exact .reads _ _ _ hr
      · rw [if_neg hr] at h; cases h; exact .short _ _ _ (by omega)
  · intro h
    cases h with
    | panics => exact .inl ⟨rfl, rfl⟩
    | short row _ _ hr =>
      refine .inr ⟨row, _, [], rfl, ?_⟩
      show Chats ((cellNow row c >>= fun s => here >>= fun o => pure (o.answer c s) : Live ι ν ε UInt16) _) _ _ _
      rw [hcell, if_neg (by omega)]
      exact .panic _ _
    | reads row _ _ hr =>
      refine .inr ⟨row, _, [], rfl, ?_⟩
      show Chats ((cellNow row c >>= fun s => here >>= fun o => pure (o.answer c s) : Live ι ν ε UInt16) _) _ _ _
      rw [hcell, if_pos hr]
      exact .ret _ _

theorem max_eq_if (mw w : UInt16) : (if w > mw then w else mw) = max mw w := by
  by_cases h : mw < w
  · rw [if_pos h, max_of_lt h]
  · rw [if_neg h, max_of_not_lt h]

/-- One more item to measure. -/
theorem runOf_maxStep (c k : Nat) (ks : List Nat) (mw : UInt16) (rest : UInt16 → Live ι ν ε UInt16)
    (h : ∀ mw, runOf (rest mw) =
      Mapped (fun cells => cells.foldl max mw) (Each (ReadsCell c) ks)) :
    runOf (do
      let item ← callGet k
      let s ← cellNow item c
      let w := (← here).answer c s
      rest (if w > mw then w else mw)) =
      Mapped (fun cells => cells.foldl max mw) (Each (ReadsCell c) (k :: ks)) := by
  rw [show (do
      let item ← callGet k
      let s ← cellNow item c
      let w := (← here).answer c s
      rest (if w > mw then w else mw)) = ((callGet k >>= fun item => cellNow item c >>= fun s => here >>= fun o => pure (o.answer c s)) >>=
        fun w => rest (if w > mw then w else mw)) from by simp only [bind_assoc, pure_bind]]
  rw [runOf_bind, runOf_readsCell, each_cons, mapped_then]
  congr 1
  funext text
  rw [h, mapped_mapped, max_eq_if]
  rfl

theorem runOf_maxDone (c : Nat) (mw : UInt16) : runOf (pure mw : Live ι ν ε UInt16) =
    Mapped (fun cells => cells.foldl max mw) (Each (ReadsCell c) []) := by
  rw [each_nil, mapped_pure]
  rfl

theorem runOf_maxH (n : Int) (c g k : Nat) (mw : UInt16) :
    runOf (maxCellWidthHL n c g k mw : Live ι ν ε UInt16) =
      Mapped (fun cells => cells.foldl max mw) (Each (ReadsCell c) (stepsFrom n.toNat g k)) := by
  fun_induction stepsFrom n.toNat g k generalizing mw with
  | case1 k h ih =>
    rw [maxCellWidthHL, dif_pos (by omega)]
    exact runOf_maxStep c k _ mw (fun mw => maxCellWidthHL n c g (k + g) mw) ih
  | case2 k h =>
    rw [maxCellWidthHL, dif_neg (by omega)]
    exact runOf_maxDone c mw

theorem runOf_maxV (c : Nat) (stop k : Int) (mw : UInt16) (h0 : k < stop → 0 ≤ k) :
    runOf (maxCellWidthVL c stop k mw : Live ι ν ε UInt16) =
      Mapped (fun cells => cells.foldl max mw)
        (Each (ReadsCell c) (stepsFrom stop.toNat 1 k.toNat)) := by
  generalize hd : (stop - k).toNat = m
  induction m generalizing k mw with
  | zero =>
    rw [maxCellWidthVL, if_neg (by omega), stepsFrom, if_neg (by omega)]
    exact runOf_maxDone c mw
  | succ m ih =>
    have hk : k < stop := by omega
    have hk0 := h0 hk
    rw [maxCellWidthVL, if_pos hk, stepsFrom, if_pos (by omega)]
    have key := runOf_maxStep c k.toNat (stepsFrom stop.toNat 1 (k.toNat + 1)) mw
      (fun mw => (maxCellWidthVL c stop (k + 1) mw : Live ι ν ε UInt16)) (fun mw => by
        have := ih (k + 1) mw (by omega) (by omega)
        rwa [show (k + 1).toNat = k.toNat + 1 by omega] at this)
    rw [show ((k.toNat : Nat) : Int) = k by omega] at key
    exact key

/-- The groups, measured. -/
theorem runOf_groups (g cols : Nat) (down : Nat → List Nat) (p : Nat → Nat → Live ι ν ε UInt16)
    (h : ∀ j c, runOf (p j c) = Mapped (fun cells => cells.foldl max 0) (Each (ReadsCell c) (down j))) :
    runOf ((List.range g).mapM fun j => (List.range cols).mapM fun c => p j c) =
      Mapped (fun cells => cells.map fun group => group.map widest)
        (Each (fun j => Each (fun c => Each (ReadsCell c) (down j)) (List.range cols)) (List.range g)) := by
  rw [runOf_mapM]
  rw [← each_mapped]
  refine each_congr _ fun j _ => ?_
  rw [runOf_mapM, ← each_mapped]
  refine each_congr _ fun c _ => ?_
  rw [h]
  rfl

theorem runOf_measureH (t g : Nat) (hg : 0 < g) :
    runOf (some <$> mergedRowsWidthHL t g) =
      MeasuresGroups (ι := ι) (ν := ν) (ε := ε) t verdictH downH g := by
  refine run_ext fun o es e o' => ?_
  unfold mergedRowsWidthHL
  rw [map_bind, runOf_bind, then_callLen]
  have key : ∀ (n : Int) (sp : Nat) (o1 : Objects), o1.spec t = some sp → ∀ (es1 : List (CallEvent ι ν ε)) e o',
      runOf (some <$> (columnsNow t >>= fun s =>
        ((List.range g).mapM fun groupI => (List.range s.len).mapM fun colI => maxCellWidthHL n colI g groupI 0) >>=
          fun rows => pure rows.flatten)) o1 es1 e o' ↔
      Mapped (fun cells => some (cells.flatMap fun group => group.map widest))
        (Each (fun j => Each (fun c => Each (ReadsCell c) (downH n.toNat g j)) (List.range (o1.columns sp).len))
          (List.range g)) o1 es1 e o' := by
    intro n sp o1 hsp es1 e o'
    rw [map_bind]
    show Chats ((columnsNow t o1).bind _) es1 e o' ↔ _
    rw [columnsNow_some hsp]
    show runOf (some <$> (((List.range g).mapM fun groupI => (List.range (o1.columns sp).len).mapM fun colI =>
      maxCellWidthHL n colI g groupI 0) >>= fun rows => pure rows.flatten)) o1 es1 e o' ↔ _
    simp only [map_bind, map_pure]
    rw [runOf_bind, runOf_groups g _ (downH n.toNat g) _ (fun j c => by rw [runOf_maxH, stepsFrom_downH _ _ _ hg]),
      then_mapped, then_pure]
    rfl
  constructor
  · rintro (⟨rfl, rfl⟩ | ⟨n, o1, es1, rfl, h⟩)
    · exact .panics _ _
    · cases hsp : o1.spec t with
      | none =>
        rw [map_bind] at h
        replace h : Chats ((columnsNow t o1).bind _) es1 e o' := h
        rw [columnsNow_none hsp] at h
        cases h
        exact .nilSpec _ _ _ hsp
      | some sp =>
        obtain ⟨e1, h1, rfl⟩ := (key n sp o1 hsp es1 e o').mp h
        exact .measures _ _ _ _ _ _ _ hsp rfl h1
  · intro h
    cases h with
    | panics => exact .inl ⟨rfl, rfl⟩
    | nilSpec n _ o1 hsp =>
      refine .inr ⟨n, _, [], rfl, ?_⟩
      rw [map_bind]
      show Chats ((columnsNow t o').bind _) _ _ _
      rw [columnsNow_none hsp]
      exact .panic _ _
    | crashes n sp _ o1 hsp hv => cases hv
    | givesUp n sp _ o1 hsp hv => cases hv
    | measures n sp _ o1 _ es1 e1 hsp hv hs => exact .inr ⟨n, o1, es1, rfl, (key n sp o1 hsp _ _ _).mpr ⟨e1, hs, rfl⟩⟩

theorem runOf_measureV (t g : Nat) (hg : 0 < g) :
    runOf (mergedRowsWidthVL t g) =
      MeasuresGroups (ι := ι) (ν := ν) (ε := ε) t verdictV downV g := by
  refine run_ext fun o es e o' => ?_
  unfold mergedRowsWidthVL
  rw [runOf_bind, then_callLen]
  have key : ∀ (n : Int) (sp : Nat) (o1 : Objects) (es1 : List (CallEvent ι ν ε)) (e : Outcome (Option (List UInt16)))
      (o' : Objects), o1.spec t = some sp →
      (runOf (do
        let colN := (← columnsNow t).len
        let lineCount := lineCountT n g
        if lineCount = 0 then stop (.run .divideByZero)
        else if (g : Int) > (n - 1).tdiv lineCount + 1 then return none
        else
          let rows ← (List.range g).mapM fun (groupI : Nat) =>
            let endItemIdx := if ((groupI : Int) + 1) * lineCount > n then n
              else ((groupI : Int) + 1) * lineCount
            (List.range colN).mapM fun colI =>
              maxCellWidthVL colI endItemIdx (groupI * lineCount) 0
          return some rows.flatten) o1 es1 e o' ↔
      (verdictV n g = .crashes ∧ es1 = [] ∧ e = .panicked (.run .divideByZero) ∧ o' = o1) ∨
      (verdictV n g = .givesUp ∧ es1 = [] ∧ e = .returned none ∧ o' = o1) ∨
      (verdictV n g = .measures ∧
        Mapped (fun cells => some (cells.flatMap fun group => group.map widest))
          (Each (fun j => Each (fun c => Each (ReadsCell c) (downV n.toNat g j)) (List.range (o1.columns sp).len))
            (List.range g)) o1 es1 e o')) := by
    intro n sp o1 es1 e o' hsp
    show Chats ((columnsNow t o1).bind _) es1 e o' ↔ _
    rw [columnsNow_some hsp]
    simp only [Chat.bind]
    rcases verdictV_cases n g hg with ⟨h1, h2⟩ | ⟨h1, h2, h3⟩ | ⟨h1, h2, h3, h4⟩
    · simp only [h1, if_true, h2, reduceCtorEq, false_and, or_false, true_and]
      constructor
      · intro h; cases h; exact ⟨rfl, rfl, rfl⟩
      · rintro ⟨rfl, rfl, rfl⟩; exact .panic _ _
    · simp only [h1, if_false, h2, if_true, h3, reduceCtorEq, false_and, or_false, true_and, false_or]
      exact runOf_pure _
    · simp only [h1, if_false, h2, h3, reduceCtorEq, false_and, true_and, false_or]
      show runOf (((List.range g).mapM fun (groupI : Nat) => (List.range (o1.columns sp).len).mapM fun colI =>
        maxCellWidthVL colI (if ((groupI : Int) + 1) * lineCountT n g > n then n
          else ((groupI : Int) + 1) * lineCountT n g) (groupI * lineCountT n g) 0) >>= fun rows =>
          pure (some rows.flatten)) o1 es1 e o' ↔ _
      rw [runOf_bind, runOf_groups g _ (downV n.toNat g) _ (fun j c => by
          rw [runOf_maxV c _ _ 0 (stepsV n g j hg h4).1, (stepsV n g j hg h4).2]),
        then_mapped, then_pure]
      rfl
  constructor
  · rintro (⟨rfl, rfl⟩ | ⟨n, o1, es1, rfl, h⟩)
    · exact .panics _ _
    · cases hsp : o1.spec t with
      | none =>
        replace h : Chats ((columnsNow t o1).bind _) es1 e o' := h
        rw [columnsNow_none hsp] at h
        cases h
        exact .nilSpec _ _ _ hsp
      | some sp =>
        rcases (key n sp o1 es1 e o' hsp).mp h with ⟨hv, rfl, rfl, rfl⟩ | ⟨hv, rfl, rfl, rfl⟩ | ⟨hv, e1, h1, rfl⟩
        · exact .crashes _ _ _ _ hsp hv
        · exact .givesUp _ _ _ _ hsp hv
        · exact .measures _ _ _ _ _ _ _ hsp hv h1
  · intro h
    cases h with
    | panics => exact .inl ⟨rfl, rfl⟩
    | nilSpec n _ o1 hsp =>
      refine .inr ⟨n, _, [], rfl, ?_⟩
      show Chats ((columnsNow t o').bind _) _ _ _
      rw [columnsNow_none hsp]
      exact .panic _ _
    | crashes n sp _ o1 hsp hv => exact .inr ⟨n, _, [], rfl, (key n sp _ _ _ _ hsp).mpr (.inl ⟨hv, rfl, rfl, rfl⟩)⟩
    | givesUp n sp _ o1 hsp hv => exact .inr ⟨n, _, [], rfl, (key n sp _ _ _ _ hsp).mpr (.inr (.inl ⟨hv, rfl, rfl, rfl⟩))⟩
    | measures n sp _ o1 _ es1 e1 hsp hv hs =>
      exact .inr ⟨n, o1, es1, rfl, (key n sp o1 _ _ _ hsp).mpr (.inr (.inr ⟨hv, e1, hs, rfl⟩))⟩

/-- The search of both merges, with the measuring left open. -/
def seekL (measure : Nat → Live ι ν ε (Option (List UInt16))) (colN : Nat) (maxWidth margin : UInt16) (g0 : Nat) :
    (fuel : Nat) → (extra : Nat) → (cw : List UInt16) → Live ι ν ε (Nat × List UInt16)
  | 0, _, _ => outOfFuel
  | fuel + 1, extra, cw => do
    match ← measure (g0 + extra + 1) with
    | none => return (extra, cw)
    | some cw' =>
      if compactTotal margin (UInt16.ofNat colN) (g0 + extra + 1) cw' > maxWidth then return (extra, cw)
      else seekL measure colN maxWidth margin g0 fuel (extra + 1) cw'

theorem seekL_H (t colN : Nat) (maxWidth margin : UInt16) (g0 fuel extra : Nat) (cw : List UInt16) :
    (compactLoopHL t colN maxWidth margin g0 fuel extra cw : Live ι ν ε _) =
      seekL (fun g => some <$> mergedRowsWidthHL t g) colN maxWidth margin g0 fuel extra cw := by
  induction fuel generalizing extra cw with
  | zero => rfl
  | succ fuel ih =>
    rw [compactLoopHL, seekL]
    simp only [bind_map_left, ih]

theorem seekL_V (t colN : Nat) (maxWidth margin : UInt16) (g0 fuel extra : Nat) (cw : List UInt16) :
    (compactLoopVL t colN maxWidth margin g0 fuel extra cw : Live ι ν ε _) =
      seekL (mergedRowsWidthVL t) colN maxWidth margin g0 fuel extra cw := by
  induction fuel generalizing extra cw with
  | zero => rfl
  | succ fuel ih =>
    rw [compactLoopVL, seekL]
    simp only [ih]
    rfl

theorem compactTotal_lineWidth (cols sepLen g : Nat) (ws : List UInt16) (hc : 0 < cols) (hg : 0 < g) :
    (compactTotal (u16 sepLen) (UInt16.ofNat cols) g ws).toNat = lineWidth cols sepLen g ws % 65536 := by
  unfold compactTotal lineWidth
  rw [foldl_add_eq, ofNat_pred g hg, ofNat_pred cols hc, u16_eq_ofNat]
  have : innerMargin = 1 := rfl
  rw [this, UInt16.one_mul, ← UInt16.ofNat_mul, ← UInt16.ofNat_mul, ← UInt16.ofNat_add, ← UInt16.ofNat_add,
    UInt16.toNat_ofNat']
  rw [Nat.mul_comm sepLen, Nat.mul_comm (cols - 1) g]
  congr 1
  have : (ws.map UInt16.toNat).sum = (ws.map (·.toNat)).sum := rfl
  omega

/-- One round of the search. -/
theorem seeks_succ (t cols sepLen maxWidth : Nat) (verdict : Int → Nat → Verdict)
    (down : Nat → Nat → Nat → List Nat) (fuel g : Nat) (w : Option (List UInt16)) :
    Seeks (ι := ι) (ν := ν) (ε := ε) t cols sepLen maxWidth verdict down (fuel + 1) g w =
      Then (MeasuresGroups t verdict down (g + 1)) fun r =>
        match r with
        | none => runOf (pure (g, w))
        | some ws => if maxWidth < lineWidth cols sepLen (g + 1) ws % 65536 then runOf (pure (g, w))
          else Seeks t cols sepLen maxWidth verdict down fuel (g + 1) (some ws) := by
  refine run_ext fun o es e o' => Iff.trans ?_ then_iff.symm
  constructor
  · intro h
    cases h with
    | cut _ _ _ _ _ _ e1 _ h hc => exact .inr ⟨_, h, hc⟩
    | givesUp _ _ _ _ _ _ h => exact .inl ⟨none, es, [], o', by simp, h, (runOf_pure _).mpr ⟨rfl, rfl, rfl⟩⟩
    | tooWide _ _ _ ws _ _ _ h hw =>
      refine .inl ⟨some ws, es, [], o', by simp, h, ?_⟩
      simp only [hw, if_true]
      exact (runOf_pure _).mpr ⟨rfl, rfl, rfl⟩
    | fits _ _ _ ws _ o1 _ es1 es2 _ h hw hs =>
      refine .inl ⟨some ws, es1, es2, o1, rfl, h, ?_⟩
      simp only [show ¬ maxWidth < lineWidth cols sepLen (g + 1) ws % 65536 by omega, if_false]
      exact hs
  · rintro (⟨r, es1, es2, o1, rfl, h, hs⟩ | ⟨e1, h, hc⟩)
    · cases r with
      | none =>
        obtain ⟨rfl, rfl, rfl⟩ := (runOf_pure _).mp hs
        rw [List.append_nil]
        exact .givesUp _ _ _ _ _ _ h
      | some ws =>
        by_cases hw : maxWidth < lineWidth cols sepLen (g + 1) ws % 65536
        · simp only [hw, if_true] at hs
          obtain ⟨rfl, rfl, rfl⟩ := (runOf_pure _).mp hs
          rw [List.append_nil]
          exact .tooWide _ _ _ ws _ _ _ h hw
        · simp only [hw, if_false] at hs
          exact .fits _ _ _ ws _ _ _ _ _ _ h (by omega) hs
    · exact .cut _ _ _ _ _ _ _ _ h hc

/-- The widths found so far, as the model and as the specification have it. -/
def foundSo (g0 : Nat) (r : Nat × List UInt16) : Nat × Option (List UInt16) :=
  (g0 + r.1, if r.1 = 0 then none else some r.2)

theorem runOf_seekL (t cols sepLen : Nat) (arg : Int) (verdict : Int → Nat → Verdict)
    (down : Nat → Nat → Nat → List Nat) (measure : Nat → Live ι ν ε (Option (List UInt16)))
    (hm : ∀ g, 0 < g → runOf (measure g) = MeasuresGroups t verdict down g) (hc : 0 < cols) (g0 fuel extra : Nat)
    (cw : List UInt16) :
    Mapped (foundSo g0) (runOf (seekL measure cols (maxWidthOf arg) (u16 sepLen) g0 fuel extra cw)) =
      Seeks t cols sepLen (clamped arg) verdict down fuel (g0 + extra) (if extra = 0 then none else some cw) := by
  induction fuel generalizing extra cw with
  | zero =>
    refine run_ext fun o es e o' => ?_
    constructor
    · rintro ⟨e1, h, rfl⟩
      cases h
      exact .unfinished _ _ _
    · intro h
      cases h
      exact ⟨.unfinished, .unfinished _, rfl⟩
  | succ fuel ih =>
    rw [seekL, seeks_succ, runOf_bind, mapped_then, hm _ (by omega)]
    congr 1
    funext r
    cases r with
    | none => exact mapped_pure _ _
    | some ws =>
      have ht := compactTotal_lineWidth cols sepLen (g0 + extra + 1) ws hc (by omega)
      have hmx := maxWidthOf_toNat arg
      by_cases hw : compactTotal (u16 sepLen) (UInt16.ofNat cols) (g0 + extra + 1) ws > maxWidthOf arg
      · have hw' : clamped arg < lineWidth cols sepLen (g0 + extra + 1) ws % 65536 := by
          rw [← ht, ← hmx]; exact UInt16.lt_iff_toNat_lt.mp hw
        simp only [hw, hw', if_true]
        exact mapped_pure _ _
      · have hw' : ¬ clamped arg < lineWidth cols sepLen (g0 + extra + 1) ws % 65536 := by
          rw [← ht, ← hmx]; exact fun h => hw (UInt16.lt_iff_toNat_lt.mpr h)
        simp only [hw, hw', if_false]
        have := ih (extra + 1) ws
        rw [if_neg (by omega)] at this
        exact this

/-! ## Whole merges -/

/-- The recorded width of the column at position `i`. -/
def recordedAt (t : Nat) (o : Objects) (s : Slice) (i : Nat) : UInt16 :=
  ((o.widths t).bind fun m => (nameAt o s i).map fun name => m name).getD 0

theorem tableWidthFrom_ok (t : Nat) (s : Slice) (o : Objects) (i : Nat) (w : UInt16)
    (hn : ∀ j, j < s.len → nameAt o s j ≠ none) : (tableWidthFrom t s i w : Live ι ν ε UInt16) o =
      .ret (w + UInt16.ofNat ((List.range' i (s.len - i)).map fun j => (recordedAt t o s j).toNat).sum) o := by
  generalize hd : s.len - i = d
  induction d generalizing i w with
  | zero =>
    rw [tableWidthFrom, if_neg (by omega)]
    simp only [List.range'_zero, List.map_nil, List.sum_nil]
    rw [show w + UInt16.ofNat 0 = w from UInt16.add_zero w]
    rfl
  | succ d ih =>
    rw [tableWidthFrom, if_pos (by omega)]
    have hi := hn i (by omega)
    unfold nameAt at hi
    cases hc : o.element s.array (s.first + i) with
    | none => rw [hc] at hi; exact absurd rfl hi
    | some col =>
      show Chat.bind (columnNow s i o) _ = _
      rw [show (columnNow s i : Live ι ν ε _) o = .ret (o.column col) o from by simp only [columnNow, hc]]
      show (tableWidthFrom t s (i + 1) (w + readWidth (o.widths t) (o.column col).name) : Live ι ν ε UInt16) o = _
      rw [ih (i + 1) _ (by omega), List.range'_succ, List.map_cons, List.sum_cons, UInt16.ofNat_add,
        UInt16.ofNat_toNat, ← UInt16.add_assoc]
      congr 3
      unfold recordedAt nameAt
      rw [hc, readWidth_eq]
      cases o.widths t <;> rfl

theorem tableWidthFrom_nil (t : Nat) (s : Slice) (o : Objects) (i : Nat) (w : UInt16) (j : Nat) (hij : i ≤ j)
    (hj : j < s.len) (hn : nameAt o s j = none) :
    (tableWidthFrom t s i w : Live ι ν ε UInt16) o = .panic (.onNil .deref) o := by
  generalize hd : j - i = d
  induction d generalizing i w with
  | zero =>
    obtain rfl : i = j := by omega
    rw [tableWidthFrom, if_pos hj]
    unfold nameAt at hn
    rw [Option.map_eq_none_iff] at hn
    show Chat.bind (columnNow s i o) _ = _
    rw [show (columnNow s i : Live ι ν ε _) o = .panic (.onNil .deref) o from by simp only [columnNow, hn]]
    rfl
  | succ d ih =>
    rw [tableWidthFrom, if_pos (by omega)]
    show Chat.bind (columnNow s i o) _ = _
    cases hc : o.element s.array (s.first + i) with
    | none =>
      rw [show (columnNow s i : Live ι ν ε _) o = .panic (.onNil .deref) o from by simp only [columnNow, hc]]
      rfl
    | some col =>
      rw [show (columnNow s i : Live ι ν ε _) o = .ret (o.column col) o from by simp only [columnNow, hc]]
      exact ih (i + 1) _ (by omega) (by omega)

theorem initialGroupCountL_eq (t : Nat) (arg : Int) (sepLen sp : Nat) (o : Objects) (h : o.spec t = some sp) :
    ((∃ j, j < (o.columns sp).len ∧ nameAt o (o.columns sp) j = none) →
      (initialGroupCountL t (maxWidthOf arg) (u16 sepLen) : Live ι ν ε Nat) o = .panic (.onNil .deref) o) ∧
    ((∀ j, j < (o.columns sp).len → nameAt o (o.columns sp) j ≠ none) →
      (pitchNow t o (o.columns sp) sepLen % 65536 = 0 →
        (initialGroupCountL t (maxWidthOf arg) (u16 sepLen) : Live ι ν ε Nat) o = .panic (.run .divideByZero) o) ∧
      (pitchNow t o (o.columns sp) sepLen % 65536 ≠ 0 →
        (initialGroupCountL t (maxWidthOf arg) (u16 sepLen) : Live ι ν ε Nat) o =
          .ret (plainGroups (clamped arg) sepLen (pitchNow t o (o.columns sp) sepLen)) o)) := by
  have h0 : (initialGroupCountL t (maxWidthOf arg) (u16 sepLen) : Live ι ν ε Nat) o =
      ((tableWidthFrom t (o.columns sp) 0 ((UInt16.ofNat (o.columns sp).len - 1) * u16 sepLen) : Live ι ν ε UInt16) o).bind
        fun w o => (if w + u16 sepLen = 0 then stop (.run .divideByZero) else
          (pure (if ((maxWidthOf arg + u16 sepLen) / (w + u16 sepLen)).toNat < 1 then 1
            else ((maxWidthOf arg + u16 sepLen) / (w + u16 sepLen)).toNat) : Live ι ν ε Nat)) o := by
    show Chat.bind (Chat.bind (columnsNow t o) _) _ = _
    rw [columnsNow_some h]
    rfl
  constructor
  · rintro ⟨j, hj, hn⟩
    rw [h0, tableWidthFrom_nil t _ o 0 _ j (by omega) hj hn]
    rfl
  · intro hn
    have hd : (UInt16.ofNat (o.columns sp).len - 1) * u16 sepLen + UInt16.ofNat
        ((List.range' 0 ((o.columns sp).len - 0)).map fun j => (recordedAt t o (o.columns sp) j).toNat).sum + u16 sepLen =
        UInt16.ofNat (pitchNow t o (o.columns sp) sepLen) := by
      unfold pitchNow
      rw [Nat.sub_zero, ← List.range_eq_range', UInt16.ofNat_add, UInt16.ofNat_mul, u16_eq_ofNat]
      show _ = UInt16.ofNat ((List.range (o.columns sp).len).map fun j => (recordedAt t o (o.columns sp) j).toNat).sum + _
      grind
    rw [h0, tableWidthFrom_ok t _ o 0 _ hn]
    simp only [Chat.bind, hd]
    generalize pitchNow t o (o.columns sp) sepLen = p
    constructor
    · intro hp
      rw [if_pos]
      · rfl
      · rw [← UInt16.toNat_inj, UInt16.toNat_ofNat']
        simpa using hp
    · intro hp
      have hd : UInt16.ofNat p ≠ 0 := by
        intro h0
        have := congrArg UInt16.toNat h0
        rw [UInt16.toNat_ofNat'] at this
        exact hp (by simpa using this)
      rw [if_neg hd]
      have : ((maxWidthOf arg + u16 sepLen) / UInt16.ofNat p).toNat = (clamped arg + sepLen) % 65536 / (p % 65536) := by
        rw [UInt16.toNat_div, UInt16.toNat_add, maxWidthOf_toNat, u16_eq_ofNat, UInt16.toNat_ofNat', UInt16.toNat_ofNat']
        congr 1
        omega
      rw [this]
      unfold plainGroups
      show Chat.ret _ o = _
      congr 1
      split <;> omega

/-- Both merges, with the measuring and the printing left open. -/
def mergeL (measure : Nat → Live ι ν ε (Option (List UInt16)))
    (print : Nat → (Nat → Nat → Live ι ν ε UInt16) → Nat → Live ι ν ε Unit)
    (t : Nat) (maxWidthArg : Int) (sep : GoString) (compact : Bool) (fuel : Nat) : Live ι ν ε Unit := do
  let colN := (← columnsNow t).len
  let groupCount ← initialGroupCountL t (maxWidthOf maxWidthArg) (u16 sep.length)
  if compact then
    let colN' := (← columnsNow t).len
    let r ← seekL measure colN' (maxWidthOf maxWidthArg) (u16 sep.length) groupCount fuel 0 []
    if r.1 > 0 then print (groupCount + r.1) (getWidthCompactL r.2 colN) colN
    else print groupCount (getWidthTableL t) colN
  else print groupCount (getWidthTableL t) colN

theorem mergeL_H (t : Nat) (arg : Int) (sep : GoString) (compact : Bool) (fuel : Nat) :
    (mergeRowsHorizontalL t arg sep compact fuel : Live ι ν ε Unit) =
      mergeL (fun g => some <$> mergedRowsWidthHL t g) (printHL t sep) t arg sep compact fuel := by
  unfold mergeRowsHorizontalL mergeL compactCalcHL
  simp only [seekL_H, bind_assoc]

theorem mergeL_V (t : Nat) (arg : Int) (sep : GoString) (compact : Bool) (fuel : Nat) :
    (mergeRowsVerticalL t arg sep compact fuel : Live ι ν ε Unit) =
      mergeL (mergedRowsWidthVL t) (printVL t sep) t arg sep compact fuel := by
  unfold mergeRowsVerticalL mergeL compactCalcVL
  simp only [seekL_V, bind_assoc]

theorem runOf_mergeL (t : Nat) (arg : Int) (sep : GoString) (verdict : Int → Nat → Verdict)
    (down onLine : Nat → Nat → Nat → List Nat) (compact : Bool) (fuel : Nat)
    (measure : Nat → Live ι ν ε (Option (List UInt16)))
    (print : Nat → (Nat → Nat → Live ι ν ε UInt16) → Nat → Live ι ν ε Unit)
    (hm : ∀ g, 0 < g → runOf (measure g) = MeasuresGroups t verdict down g)
    (hpr : ∀ g gw colN W, 0 < g → (∀ j, SameWidth (fun c => gw c j) (W j)) →
      runOf (print g gw colN) = Prints t colN W sep g onLine) :
    runOf (mergeL measure print t arg sep compact fuel) = Merges t arg sep verdict down onLine compact fuel := by
  refine run_ext fun o es e o' => ?_
  show Chats ((columnsNow t o).bind _) es e o' ↔ _
  cases h : o.spec t with
  | none =>
    rw [columnsNow_none h]
    constructor
    · intro hx; cases hx; exact .nilSpec _ h
    · intro hx
      cases hx with
      | nilSpec => exact .panic _ _
      | nilColumn sp _ _ h1 => rw [h] at h1; cases h1
      | zero sp _ h1 => rw [h] at h1; cases h1
      | plain sp _ _ _ _ h1 => rw [h] at h1; cases h1
      | compact sp _ _ _ _ h1 => rw [h] at h1; cases h1
  | some sp =>
    rw [columnsNow_some h]
    simp only [Chat.bind]
    have hg := initialGroupCountL_eq (ι := ι) (ν := ν) (ε := ε) t arg sep.length sp o h
    show Chats (Chat.bind ((initialGroupCountL t (maxWidthOf arg) (u16 sep.length) : Live ι ν ε Nat) o) _) es e o' ↔ _
    by_cases hn : ∃ j, j < (o.columns sp).len ∧ nameAt o (o.columns sp) j = none
    · rw [hg.1 hn]
      obtain ⟨j, hj, hn⟩ := hn
      constructor
      · intro hx; cases hx; exact .nilColumn sp j _ h hj hn
      · intro hx
        cases hx with
        | nilSpec _ h1 => rw [h] at h1; cases h1
        | nilColumn => exact .panic _ _
        | zero sp _ h1 hn1 => rw [h] at h1; cases h1; exact absurd hn (hn1 j hj)
        | plain sp _ _ _ _ h1 hn1 => rw [h] at h1; cases h1; exact absurd hn (hn1 j hj)
        | compact sp _ _ _ _ h1 hn1 => rw [h] at h1; cases h1; exact absurd hn (hn1 j hj)
    · have hn' : ∀ j, j < (o.columns sp).len → nameAt o (o.columns sp) j ≠ none := fun j hj h => hn ⟨j, hj, h⟩
      by_cases hp : pitchNow t o (o.columns sp) sep.length % 65536 = 0
      · rw [(hg.2 hn').1 hp]
        constructor
        · intro hx; cases hx; exact .zero sp _ h hn' hp
        · intro hx
          cases hx with
          | nilSpec _ h1 => rw [h] at h1; cases h1
          | nilColumn sp j _ h1 hj hn1 => rw [h] at h1; cases h1; exact absurd hn1 (hn' j hj)
          | zero => exact .panic _ _
          | plain sp _ _ _ _ h1 _ hp1 => rw [h] at h1; cases h1; exact absurd hp hp1
          | compact sp _ _ _ _ h1 _ hp1 => rw [h] at h1; cases h1; exact absurd hp hp1
      · rw [(hg.2 hn').2 hp]
        have hc : 0 < (o.columns sp).len := by
          rcases Nat.eq_zero_or_pos (o.columns sp).len with h0 | h0
          · exfalso; apply hp; unfold pitchNow; simp [h0]
          · exact h0
        have hg0 := plainGroups_pos (clamped arg) sep.length (pitchNow t o (o.columns sp) sep.length)
        simp only [Chat.bind]
        have tbl : ∀ j, SameWidth (fun c => (getWidthTableL t c j : Live ι ν ε UInt16))
            (widthIn t (o.columns sp).len none j) := fun j => sameWidth_table t j
        have fnd : ∀ ws j, SameWidth (fun c => (getWidthCompactL ws (o.columns sp).len c j : Live ι ν ε UInt16))
            (widthIn t (o.columns sp).len (some ws) j) := fun ws j => sameWidth_found ws _ j
        cases compact with
        | false =>
          simp only [Bool.false_eq_true, if_false]
          show runOf (print _ _ _) o es e o' ↔ _
          rw [hpr _ _ _ _ hg0 tbl]
          constructor
          · intro hx; exact .plain sp _ _ _ _ h hn' hp rfl hx
          · intro hx
            cases hx with
            | nilSpec _ h1 => rw [h] at h1; cases h1
            | nilColumn sp j _ h1 hj hn1 => rw [h] at h1; cases h1; exact absurd hn1 (hn' j hj)
            | zero sp _ h1 _ hp1 => rw [h] at h1; cases h1; exact absurd hp1 hp
            | plain sp _ _ _ _ h1 _ _ _ hr => rw [h] at h1; cases h1; exact hr
            | compact sp _ _ _ _ h1 _ _ hc1 => cases hc1
        | true =>
          simp only [if_true]
          show Chats ((columnsNow t o).bind _) es e o' ↔ _
          rw [columnsNow_some h]
          have key : runOf (do
              let r ← seekL measure (o.columns sp).len (maxWidthOf arg) (u16 sep.length)
                (plainGroups (clamped arg) sep.length (pitchNow t o (o.columns sp) sep.length)) fuel 0 []
              if r.1 > 0 then
                print (plainGroups (clamped arg) sep.length (pitchNow t o (o.columns sp) sep.length) + r.1)
                  (getWidthCompactL r.2 (o.columns sp).len) (o.columns sp).len
              else
                print (plainGroups (clamped arg) sep.length (pitchNow t o (o.columns sp) sep.length))
                  (getWidthTableL t) (o.columns sp).len) =
              Then
                (Seeks t (o.columns sp).len sep.length (clamped arg) verdict down fuel
                  (plainGroups (clamped arg) sep.length (pitchNow t o (o.columns sp) sep.length)) none)
                (fun r => Prints t (o.columns sp).len (widthIn t (o.columns sp).len r.2) sep r.1 onLine) := by
            have := runOf_seekL t (o.columns sp).len sep.length arg verdict down measure hm hc
              (plainGroups (clamped arg) sep.length (pitchNow t o (o.columns sp) sep.length)) fuel 0 []
            rw [if_pos rfl, Nat.add_zero] at this
            rw [runOf_bind, ← this, then_mapped]
            congr 1
            funext r
            unfold foundSo
            by_cases hr : r.1 = 0
            · simp only [hr, gt_iff_lt, Nat.lt_irrefl, if_false, if_true, Nat.add_zero]
              exact hpr _ _ _ _ hg0 tbl
            · simp only [gt_iff_lt, show 0 < r.1 by omega, if_true, hr, if_false]
              exact hpr _ _ _ _ (by omega) (fnd r.2)
          show runOf _ o es e o' ↔ _
          rw [key]
          constructor
          · intro hx; exact .compact sp _ _ _ _ h hn' hp rfl hx
          · intro hx
            cases hx with
            | nilSpec _ h1 => rw [h] at h1; cases h1
            | nilColumn sp j _ h1 hj hn1 => rw [h] at h1; cases h1; exact absurd hn1 (hn' j hj)
            | zero sp _ h1 _ hp1 => rw [h] at h1; cases h1; exact absurd hp1 hp
            | plain sp _ _ _ _ h1 _ _ hc1 => cases hc1
            | compact sp _ _ _ _ h1 _ _ _ hr => rw [h] at h1; cases h1; exact hr

theorem runOf_mergeH (t : Nat) (arg : Int) (sep : GoString) (compact : Bool) (fuel : Nat) :
    runOf (mergeRowsHorizontalL t arg sep compact fuel) =
      Merges (ι := ι) (ν := ν) (ε := ε) t arg sep verdictH downH onLineH compact fuel := by
  rw [mergeL_H]
  refine runOf_mergeL t arg sep verdictH downH onLineH compact fuel _ _ (fun g hg => runOf_measureH t g hg) ?_
  intro g gw colN W hg hW
  exact runOf_print t colN gw W hW sep (fun _ i => indexH g i) g hg onLineH fun n i => onLineH_eq n.toNat g i

theorem runOf_mergeV (t : Nat) (arg : Int) (sep : GoString) (compact : Bool) (fuel : Nat) :
    runOf (mergeRowsVerticalL t arg sep compact fuel) =
      Merges (ι := ι) (ν := ν) (ε := ε) t arg sep verdictV downV (fun n g i => onLineV n g (linesFor n g) i)
        compact fuel := by
  rw [mergeL_V]
  refine runOf_mergeL t arg sep verdictV downV _ compact fuel _ _ (fun g hg => runOf_measureV t g hg) ?_
  intro g gw colN W hg hW
  refine runOf_print t colN gw W hW sep (fun n i => indexV (lineCountT n g).toNat i) g hg _ fun n i => ?_
  rw [onLineV_eq, linesClaimed_eq n g hg]
  by_cases hn : 0 < n
  · rw [linesClaimed, if_pos hn]
  · simp [onLineV, show n.toNat = 0 by omega]

/-! ## Nothing is written to memory -/

theorem chained_append {o o1 o2 : Objects} {es1 es2 : List (CallEvent ι ν ε)} (h1 : Chained o es1 o1)
    (h2 : Chained o1 es2 o2) : Chained o (es1 ++ es2) o2 := by
  induction h1 with
  | nil => exact h2
  | cons c es o o' hb h ih => exact .cons _ _ _ _ hb (ih h2)

/-- All the runs are chained. -/
def AllChained (R : Run ι ν ε α) : Prop := ∀ o es e o', R o es e o' → Chained o es o'

theorem chained_then {R : Run ι ν ε α} {S : α → Run ι ν ε β} (hR : AllChained R) (hS : ∀ a, AllChained (S a)) :
    AllChained (Then R S) := by
  intro o es e o' h
  cases h with
  | goesOn a _ o1 _ es1 es2 _ h hs => exact chained_append (hR _ _ _ _ h) (hS _ _ _ _ _ hs)
  | cut _ _ _ _ _ h _ => exact hR _ _ _ _ h

theorem chained_each {R : γ → Run ι ν ε α} (hR : ∀ x, AllChained (R x)) (l : List γ) : AllChained (Each R l) := by
  intro o es e o' h
  induction h with
  | nil => exact .nil _
  | cons x xs a o o1 o2 es1 es2 e h hs ih => exact chained_append (hR _ _ _ _ _ h) ih
  | cut _ _ _ _ _ _ _ h _ => exact hR _ _ _ _ _ h

theorem chained_makesCell (cols : Nat) (W : Objects → Nat → Except Fault UInt16) (s row : Slice) (c : Nat) :
    AllChained (MakesCell (ι := ι) (ν := ν) (ε := ε) cols W s row c) := by
  intro o es e o' h
  cases h with
  | nilColumn | short | noWidth | left | leftNoRoom => exact .nil _
  | aligned | alignedNoRoom | alignPanics => exact .cons _ _ _ _ rfl (.nil _)

theorem chained_makesItem (t cols : Nat) (W : Objects → Nat → Except Fault UInt16) (k : Nat) :
    AllChained (MakesItem (ι := ι) (ν := ν) (ε := ε) t cols W k) := by
  intro o es e o' h
  cases h with
  | panics | nilSpec => exact .cons _ _ _ _ rfl (.nil _)
  | made row sp _ o1 _ es e h hs =>
    exact .cons _ _ _ _ rfl (chained_each (fun _ => chained_makesCell cols W _ _ _) _ _ _ _ _ hs)

theorem chained_writesLine (t cols : Nat) (W : Nat → Objects → Nat → Except Fault UInt16) (sep : GoString)
    (g : Nat) (shown : List Nat) :
    AllChained (WritesLine (ι := ι) (ν := ν) (ε := ε) t cols W sep g shown) := by
  intro o es e o' h
  cases h with
  | cut _ _ _ _ _ h _ => exact chained_each (fun _ => chained_makesItem t cols _ _) _ _ _ _ _ h
  | writes texts reply _ o1 _ es h =>
    exact chained_append (chained_each (fun _ => chained_makesItem t cols _ _) _ _ _ _ _ h) (.cons _ _ _ _ rfl (.nil _))

theorem chained_prints (t cols : Nat) (W : Nat → Objects → Nat → Except Fault UInt16) (sep : GoString)
    (g : Nat) (onLine : Nat → Nat → Nat → List Nat) :
    AllChained (Prints (ι := ι) (ν := ν) (ε := ε) t cols W sep g onLine) := by
  intro o es e o' h
  cases h with
  | panics => exact .cons _ _ _ _ rfl (.nil _)
  | lines n _ o1 _ es e h => exact .cons _ _ _ _ rfl (chained_each (fun _ => chained_writesLine t cols W sep g _) _ _ _ _ _ h)

theorem chained_readsCell (c k : Nat) : AllChained (ReadsCell (ι := ι) (ν := ν) (ε := ε) c k) := by
  intro o es e o' h
  cases h with
  | panics | short | reads => exact .cons _ _ _ _ rfl (.nil _)

theorem chained_measures (t : Nat) (verdict : Int → Nat → Verdict)
    (down : Nat → Nat → Nat → List Nat) (g : Nat) :
    AllChained (MeasuresGroups (ι := ι) (ν := ν) (ε := ε) t verdict down g) := by
  intro o es e o' h
  cases h with
  | panics | nilSpec | crashes | givesUp => exact .cons _ _ _ _ rfl (.nil _)
  | measures n sp _ o1 _ es e h hv hs =>
    exact .cons _ _ _ _ rfl (chained_each (fun _ => chained_each (fun _ => chained_each (fun _ => chained_readsCell _ _) _) _)
      _ _ _ _ _ hs)

theorem chained_seeks (t cols sepLen maxWidth : Nat) (verdict : Int → Nat → Verdict)
    (down : Nat → Nat → Nat → List Nat) (fuel g : Nat) (w : Option (List UInt16)) :
    AllChained (Seeks (ι := ι) (ν := ν) (ε := ε) t cols sepLen maxWidth verdict down fuel g w) := by
  intro o es e o' h
  induction h with
  | unfinished => exact .nil _
  | cut _ _ _ _ _ _ _ _ h _ => exact chained_measures t verdict down _ _ _ _ _ h
  | givesUp _ _ _ _ _ _ h => exact chained_measures t verdict down _ _ _ _ _ h
  | tooWide _ _ _ _ _ _ _ h _ => exact chained_measures t verdict down _ _ _ _ _ h
  | fits _ _ _ _ _ _ _ _ _ _ h _ _ ih => exact chained_append (chained_measures t verdict down _ _ _ _ _ h) ih

theorem chained_merges (t : Nat) (arg : Int) (sep : GoString) (verdict : Int → Nat → Verdict)
    (down : Nat → Nat → Nat → List Nat) (onLine : Nat → Nat → Nat → List Nat) (compact : Bool) (fuel : Nat) :
    AllChained (Merges (ι := ι) (ν := ν) (ε := ε) t arg sep verdict down onLine compact fuel) := by
  intro o es e o' h
  cases h with
  | nilSpec | nilColumn | zero => exact .nil _
  | plain _ _ _ _ _ _ _ _ _ hr => exact chained_prints _ _ _ _ _ _ _ _ _ _ hr
  | compact _ _ _ _ _ _ _ _ _ hr =>
    exact chained_then (chained_seeks _ _ _ _ _ _ _ _ _) (fun _ => chained_prints _ _ _ _ _ _) _ _ _ _ hr

theorem grown_chained {o o' : Objects} {es : List (CallEvent ι ν ε)} (h : Chained o es o')
    (hs : ∀ ev ∈ es, Grown ev.before ev.after) : Grown o o' := by
  induction h with
  | nil => exact grown_refl _
  | cons c es o o' hb h ih =>
    exact grown_trans (hb ▸ hs _ (List.mem_cons_self ..)) (ih fun ev hev => hs ev (List.mem_cons_of_mem _ hev))

theorem chained_mergeH {t : Nat} {arg : Int} {sep : GoString} {compact : Bool} {fuel : Nat} {o : Objects}
    {es : List (CallEvent ι ν ε)} {e : Outcome Unit} {o' : Objects}
    (h : Chats (mergeRowsHorizontalL t arg sep compact fuel o) es e o') : Chained o es o' := by
  replace h : runOf (mergeRowsHorizontalL t arg sep compact fuel) o es e o' := h
  rw [runOf_mergeH] at h
  exact chained_merges _ _ _ _ _ _ _ _ _ _ _ _ h

theorem chained_mergeV {t : Nat} {arg : Int} {sep : GoString} {compact : Bool} {fuel : Nat} {o : Objects}
    {es : List (CallEvent ι ν ε)} {e : Outcome Unit} {o' : Objects}
    (h : Chats (mergeRowsVerticalL t arg sep compact fuel o) es e o') : Chained o es o' := by
  replace h : runOf (mergeRowsVerticalL t arg sep compact fuel) o es e o' := h
  rw [runOf_mergeV] at h
  exact chained_merges _ _ _ _ _ _ _ _ _ _ _ _ h

mutual
theorem grown_acts {o o' : Objects} : Acts ι ν ε o o' → Grown o o'
  | .nothing o => grown_refl o
  | .changes _ _ _ h rest => grown_trans (grown_open h) (grown_acts rest)
  | .updates _ _ _ _ _ h rest => grown_trans (grown_updates h) (grown_acts rest)
  | .formats _ _ _ _ _ _ _ h hs rest => grown_trans (grown_formats h (grown_all hs)) (grown_acts rest)
  | .collects _ _ _ _ _ _ _ _ h hs rest => grown_trans (grown_basic h (grown_all hs)) (grown_acts rest)
  | .aligns _ _ _ _ _ _ _ h hs rest => grown_trans (grown_align h (grown_all hs)) (grown_acts rest)
  | .mergesHorizontal _ _ _ _ _ _ _ _ _ _ h hs rest =>
    grown_trans (grown_chained (chained_mergeH h) (grown_all hs)) (grown_acts rest)
  | .mergesVertical _ _ _ _ _ _ _ _ _ _ h hs rest =>
    grown_trans (grown_chained (chained_mergeV h) (grown_all hs)) (grown_acts rest)

theorem grown_all {es : List (CallEvent ι ν ε)} : AllAct ι ν ε es →
    ∀ ev ∈ es, Grown ev.before ev.after
  | .nil => fun _ h => nomatch h
  | .cons _ _ h hs => List.forall_mem_cons.mpr ⟨grown_acts h, grown_all hs⟩
end

end GoTable
