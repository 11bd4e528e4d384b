import Verif.Model.GenProperties
import Verif.Spec.GenProperties
/-!
# White space at the ends of a text can be taken off in one way only
-/

namespace GoTable
open Spec

theorem spaceEncodings_eq : spaceEncodings = whiteSpace.map encode := by decide +kernel

theorem space_lead : ∀ e ∈ spaceEncodings, ∃ b t, e = b :: t ∧ isCont b = false ∧ ∀ c ∈ t, isCont c = true := by
  have h : ∀ e ∈ spaceEncodings, e ≠ [] ∧ isCont (e.headD 0) = false ∧ e.tail.all isCont = true := by decide +kernel
  intro e he
  obtain ⟨h1, h2, h3⟩ := h e he
  cases e with
  | nil => exact absurd rfl h1
  | cons b t => exact ⟨b, t, rfl, h2, by simpa using h3⟩

theorem space_prefix_free : ∀ e ∈ spaceEncodings, ∀ e' ∈ spaceEncodings, e <+: e' → e = e' := by decide +kernel
theorem space_suffix_free : ∀ e ∈ spaceEncodings, ∀ e' ∈ spaceEncodings, e <:+ e' → e = e' := by decide +kernel

theorem space_cancel {e e' x y : GoString} (he : e ∈ spaceEncodings) (he' : e' ∈ spaceEncodings)
    (h : e ++ x = e' ++ y) : e = e' ∧ x = y := by
  have : e = e' := by
    rcases List.prefix_or_prefix_of_prefix (List.prefix_append e x) (h ▸ List.prefix_append e' y) with hp | hp
    · exact space_prefix_free _ he _ he' hp
    · exact (space_prefix_free _ he' _ he hp).symm
  subst this
  exact ⟨rfl, List.append_cancel_left h⟩

theorem space_cancel_back {e e' x y : GoString} (he : e ∈ spaceEncodings) (he' : e' ∈ spaceEncodings)
    (h : x ++ e = y ++ e') : e = e' ∧ x = y := by
  have : e = e' := by
    rcases List.suffix_or_suffix_of_suffix (List.suffix_append x e) (h ▸ List.suffix_append y e') with hp | hp
    · exact space_suffix_free _ he _ he' hp
    · exact (space_suffix_free _ he' _ he hp).symm
  subst this
  exact ⟨rfl, List.append_cancel_right h⟩

/-- White space does not start inside an encoding. -/
theorem space_straddle {e t : GoString} {b : List GoString} (he : e ∈ spaceEncodings)
    (hb : ∀ x ∈ b, x ∈ spaceEncodings) (h : e <+: t ++ b.flatten) (hn : ¬ e <+: t) : t = [] := by
  rcases List.prefix_or_prefix_of_prefix h (List.prefix_append t b.flatten) with hp | hp
  · exact absurd hp hn
  obtain ⟨y, rfl⟩ := hp
  cases t with
  | nil => rfl
  | cons c t =>
    obtain ⟨c', t', e1, hl, hc⟩ := space_lead _ he
    rw [List.cons_append] at e1
    obtain ⟨rfl, rfl⟩ := List.cons.inj e1
    cases y with
    | nil => exact absurd (by simp) hn
    | cons d y =>
      rw [List.prefix_append_right_inj] at h
      cases b with
      | nil => simp at h
      | cons x b =>
        obtain ⟨d', x', rfl, hl', _⟩ := space_lead _ (hb x List.mem_cons_self)
        obtain ⟨z, hz⟩ := h
        simp only [List.flatten_cons, List.cons_append] at hz
        obtain ⟨rfl, _⟩ := List.cons.inj hz
        rw [hc d (by simp)] at hl'
        cases hl'

theorem space_all {a b b' : List GoString} {t : GoString} (ha : ∀ x ∈ a, x ∈ spaceEncodings)
    (hb : ∀ x ∈ b, x ∈ spaceEncodings) (hb' : ∀ x ∈ b', x ∈ spaceEncodings) (hn : ∀ e ∈ spaceEncodings, ¬ e <+: t)
    (h : b.flatten = a.flatten ++ (t ++ b'.flatten)) : t = [] := by
  induction b generalizing a with
  | nil => simp at h; exact h.2.1
  | cons e b ih =>
    have he := hb e List.mem_cons_self
    cases a with
    | nil =>
      refine space_straddle he hb' ?_ (hn e he)
      simp only [List.flatten_cons, List.flatten_nil, List.nil_append] at h
      rw [← h]; exact List.prefix_append _ _
    | cons e' a =>
      rw [List.flatten_cons, List.flatten_cons, List.append_assoc] at h
      obtain ⟨_, h⟩ := space_cancel he (ha e' List.mem_cons_self) h
      exact ih (fun x hx => ha x (List.mem_cons_of_mem _ hx)) (fun x hx => hb x (List.mem_cons_of_mem _ hx)) h

theorem space_front {a a' b b' : List GoString} {t t' : GoString} (ha : ∀ x ∈ a, x ∈ spaceEncodings)
    (ha' : ∀ x ∈ a', x ∈ spaceEncodings) (hb : ∀ x ∈ b, x ∈ spaceEncodings) (hb' : ∀ x ∈ b', x ∈ spaceEncodings)
    (hn : ∀ e ∈ spaceEncodings, ¬ e <+: t) (hn' : ∀ e ∈ spaceEncodings, ¬ e <+: t')
    (h : a.flatten ++ (t ++ b.flatten) = a'.flatten ++ (t' ++ b'.flatten)) :
    t ++ b.flatten = t' ++ b'.flatten ∨ t = t' := by
  induction a generalizing a' with
  | nil =>
    cases a' with
    | nil => exact .inl h
    | cons e a' =>
      have he := ha' e List.mem_cons_self
      have ht : t = [] := by
        refine space_straddle he hb ?_ (hn e he)
        simp only [List.flatten_cons, List.flatten_nil, List.nil_append] at h
        rw [h, List.append_assoc]; exact List.prefix_append _ _
      subst ht
      right
      exact (space_all ha' hb hb' hn' (by simpa using h)).symm
  | cons e a ih =>
    have he := ha e List.mem_cons_self
    cases a' with
    | nil =>
      have ht : t' = [] := by
        refine space_straddle he hb' ?_ (hn' e he)
        simp only [List.flatten_cons, List.flatten_nil, List.nil_append] at h
        rw [← h, List.append_assoc]; exact List.prefix_append _ _
      subst ht
      right
      exact space_all ha hb' hb hn (by simpa using h.symm)
    | cons e' a' =>
      rw [List.flatten_cons, List.flatten_cons, List.append_assoc, List.append_assoc] at h
      obtain ⟨_, h⟩ := space_cancel he (ha' e' List.mem_cons_self) h
      exact ih (fun x hx => ha x (List.mem_cons_of_mem _ hx)) (fun x hx => ha' x (List.mem_cons_of_mem _ hx)) h

theorem space_back {t t' : GoString} (hn : ∀ e ∈ spaceEncodings, ¬ e <:+ t) (hn' : ∀ e ∈ spaceEncodings, ¬ e <:+ t')
    (b b' : List GoString) (hb : ∀ x ∈ b, x ∈ spaceEncodings) (hb' : ∀ x ∈ b', x ∈ spaceEncodings)
    (h : t ++ b.reverse.flatten = t' ++ b'.reverse.flatten) : t = t' := by
  induction b generalizing b' with
  | nil =>
    cases b' with
    | nil => simpa using h
    | cons e b' =>
      refine absurd ?_ (hn e (hb' e List.mem_cons_self))
      simp only [List.reverse_nil, List.flatten_nil, List.append_nil, List.reverse_cons, List.flatten_append,
        List.flatten_cons] at h
      rw [h, ← List.append_assoc]; exact List.suffix_append _ _
  | cons e b ih =>
    cases b' with
    | nil =>
      refine absurd ?_ (hn' e (hb e List.mem_cons_self))
      simp only [List.reverse_nil, List.flatten_nil, List.append_nil, List.reverse_cons, List.flatten_append,
        List.flatten_cons] at h
      rw [← h, ← List.append_assoc]; exact List.suffix_append _ _
    | cons e' b' =>
      simp only [List.reverse_cons, List.flatten_append, List.flatten_cons, List.flatten_nil, List.append_nil] at h
      rw [← List.append_assoc, ← List.append_assoc] at h
      obtain ⟨_, h⟩ := space_cancel_back (hb e List.mem_cons_self) (hb' e' List.mem_cons_self) h
      exact ih b' (fun x hx => hb x (List.mem_cons_of_mem _ hx)) (fun x hx => hb' x (List.mem_cons_of_mem _ hx)) h

theorem trimmed_iff (s t : GoString) : Trimmed s t ↔
    (∃ a b : List GoString, (∀ e ∈ a ++ b, e ∈ spaceEncodings) ∧ s = a.flatten ++ t ++ b.flatten) ∧
    (∀ e ∈ spaceEncodings, ¬ e <:+ t) ∧ ∀ e ∈ spaceEncodings, ¬ e <+: t := by
  rw [spaceEncodings_eq]
  constructor
  · rintro ⟨⟨a, b, hab, e⟩, hf, hk⟩
    refine ⟨⟨a.map encode, b.map encode, fun x hx => ?_, e⟩, ?_, ?_⟩
    · rw [← List.map_append] at hx
      obtain ⟨c, hc, rfl⟩ := List.mem_map.mp hx
      exact List.mem_map_of_mem (hab c hc)
    · simpa using hk
    · simpa using hf
  · rintro ⟨⟨a, b, hab, e⟩, hk, hf⟩
    have hl : ∀ l : List GoString, (∀ e ∈ l, e ∈ whiteSpace.map encode) → ∃ m : List Nat, (∀ c ∈ m, c ∈ whiteSpace) ∧
        l = m.map encode := by
      intro l hl
      induction l with
      | nil => exact ⟨[], by simp, rfl⟩
      | cons x l ih =>
        obtain ⟨m, hm, rfl⟩ := ih fun e he => hl e (List.mem_cons_of_mem _ he)
        obtain ⟨c, hc, rfl⟩ := List.mem_map.mp (hl x List.mem_cons_self)
        exact ⟨c :: m, by simpa using ⟨hc, hm⟩, rfl⟩
    obtain ⟨m, hm, rfl⟩ := hl a fun x hx => hab x (List.mem_append_left _ hx)
    obtain ⟨n, hn, rfl⟩ := hl b fun x hx => hab x (List.mem_append_right _ hx)
    refine ⟨⟨m, n, fun c hc => (List.mem_append.mp hc).elim (hm c) (hn c), e⟩, ?_, ?_⟩
    · simpa using hf
    · simpa using hk

theorem trimmed_unique {s t t' : GoString} (h : Trimmed s t) (h' : Trimmed s t') : t = t' := by
  obtain ⟨⟨a, b, hab, e⟩, hk, hf⟩ := (trimmed_iff s t).mp h
  obtain ⟨⟨a', b', hab', e'⟩, hk', hf'⟩ := (trimmed_iff s t').mp h'
  have hb : ∀ x ∈ b, x ∈ spaceEncodings := fun x hx => hab x (List.mem_append_right _ hx)
  have hb' : ∀ x ∈ b', x ∈ spaceEncodings := fun x hx => hab' x (List.mem_append_right _ hx)
  rcases space_front (fun x hx => hab x (List.mem_append_left _ hx)) (fun x hx => hab' x (List.mem_append_left _ hx))
    hb hb' hf hf' (by rw [← List.append_assoc, ← List.append_assoc, ← e, ← e']) with h1 | h1
  · exact space_back hk hk' b.reverse b'.reverse (by simpa using hb) (by simpa using hb')
      (by rw [List.reverse_reverse, List.reverse_reverse]; exact h1)
  · exact h1

end GoTable
