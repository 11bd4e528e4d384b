import Verif.Proofs.EscapeWidth
import Verif.Proofs.Sgr
import Verif.Proofs.UTF8
import Verif.Spec.Escapes
/-! The matcher finds exactly the escape sequences of the specification. -/

namespace GoTable
open Spec

/-! ## The language of an expression over printable ASCII -/

/-- The texts an expression matches. -/
def Regex.Lang : Regex → GoString → Prop
  | .cls p, e => ∃ b : UInt8, e = [b] ∧ p b.toNat = true
  | .cat a b, e => ∃ x y, e = x ++ y ∧ a.Lang x ∧ b.Lang y
  | .opt a, e => e = [] ∨ a.Lang e
  | .star a, e => ∃ xs : List GoString, e = xs.flatten ∧ ∀ x ∈ xs, a.Lang x

theorem starRun_lang (f : GoString → List GoString) (L : GoString → Prop)
    (hf : ∀ s r, r ∈ f s ↔ ∃ e, L e ∧ s = e ++ r) (s r : GoString) :
    r ∈ starRun f s ↔ ∃ xs : List GoString, (∀ x ∈ xs, L x) ∧ s = xs.flatten ++ r := by
  induction hn : s.length using Nat.strongRecOn generalizing s with
  | _ n ih =>
    rw [starRun, List.mem_append, List.mem_flatMap]
    constructor
    · rintro (⟨s', hs', hr⟩ | hr)
      · split at hr
        · rename_i hlt
          obtain ⟨xs, h1, h2⟩ := (ih _ (by omega) s' rfl).mp hr
          obtain ⟨e, he, rfl⟩ := (hf _ _).mp hs'
          refine ⟨e :: xs, ?_, by rw [h2]; simp⟩
          intro x hx
          rcases List.mem_cons.mp hx with rfl | hx
          · exact he
          · exact h1 x hx
        · simp at hr
      · simp at hr; subst hr; exact ⟨[], by simp, rfl⟩
    · rintro ⟨xs, h1, h2⟩
      induction xs with
      | nil => right; simp at h2; simp [h2]
      | cons x xs ihx =>
        by_cases hx : x = []
        · subst hx
          exact ihx (fun y hy => h1 y (List.mem_cons_of_mem _ hy)) (by simpa using h2)
        · left
          refine ⟨xs.flatten ++ r, (hf _ _).mpr ⟨x, h1 x (by simp), by rw [h2]; simp⟩, ?_⟩
          have hlt : (xs.flatten ++ r).length < s.length := by
            rw [h2]
            have := List.length_pos_iff.mpr hx
            simp only [List.flatten_cons, List.length_append]
            omega
          rw [dif_pos hlt]
          exact (ih _ (by omega) _ rfl).mpr ⟨xs, fun y hy => h1 y (List.mem_cons_of_mem _ hy), rfl⟩

theorem Regex.run_lang (re : Regex) (h : re.AsciiOnly) (s r : GoString) :
    r ∈ re.run s ↔ ∃ e, re.Lang e ∧ s = e ++ r := by
  induction re generalizing s r with
  | cls p =>
    constructor
    · intro hr
      cases s with
      | nil => simp [Regex.run] at hr
      | cons b t =>
        rw [Regex.run] at hr
        split at hr
        · rename_i hp
          simp only [List.mem_singleton] at hr
          subst hr
          have hra := h _ hp
          obtain ⟨hb, hd⟩ := decodeRune_lt_80 b t (by omega)
          rw [hd] at hp ⊢
          exact ⟨[b], ⟨b, rfl, hp⟩, rfl⟩
        · simp at hr
    · rintro ⟨e, ⟨b, rfl, hp⟩, rfl⟩
      have := h _ hp
      rw [List.singleton_append, run_cls_ascii _ _ _ (by omega), if_pos hp]
      simp
  | cat a b iha ihb =>
    rw [Regex.run, List.mem_flatMap]
    constructor
    · rintro ⟨m, hm, hr⟩
      obtain ⟨x, hx, rfl⟩ := (iha h.1 _ _).mp hm
      obtain ⟨y, hy, rfl⟩ := (ihb h.2 _ _).mp hr
      exact ⟨x ++ y, ⟨x, y, rfl, hx, hy⟩, by simp⟩
    · rintro ⟨e, ⟨x, y, rfl, hx, hy⟩, rfl⟩
      exact ⟨y ++ r, (iha h.1 _ _).mpr ⟨x, hx, by simp⟩, (ihb h.2 _ _).mpr ⟨y, hy, rfl⟩⟩
  | opt a iha =>
    rw [Regex.run, List.mem_append, List.mem_singleton, iha h]
    constructor
    · rintro (⟨e, he, rfl⟩ | rfl)
      · exact ⟨e, Or.inr he, rfl⟩
      · exact ⟨[], Or.inl rfl, rfl⟩
    · rintro ⟨e, rfl | he, rfl⟩
      · right; rfl
      · exact Or.inl ⟨e, he, rfl⟩
  | star a iha =>
    rw [Regex.run, starRun_lang _ a.Lang (fun s r => iha h s r)]
    constructor
    · rintro ⟨xs, h1, rfl⟩; exact ⟨_, ⟨xs, rfl, h1⟩, rfl⟩
    · rintro ⟨_, ⟨xs, rfl, h1⟩, rfl⟩; exact ⟨xs, h1, rfl⟩

theorem lang_upToSucc (p : Nat → Bool) (n : Nat) (e : GoString) :
    (Regex.upToSucc (.cls p) n).Lang e ↔ e.length ≤ n + 1 ∧ ∀ b ∈ e, p b.toNat = true := by
  induction n generalizing e with
  | zero =>
    rw [Regex.upToSucc]
    constructor
    · rintro (rfl | ⟨b, rfl, hb⟩)
      · simp
      · simpa using hb
    · rintro ⟨h1, h2⟩
      match e, h1 with
      | [], _ => exact Or.inl rfl
      | [b], _ => exact Or.inr ⟨b, rfl, h2 b (by simp)⟩
  | succ n ih =>
    rw [Regex.upToSucc]
    constructor
    · rintro (rfl | ⟨x, y, rfl, ⟨b, rfl, hb⟩, hy⟩)
      · simp
      · obtain ⟨h1, h2⟩ := (ih y).mp hy
        refine ⟨by simp; omega, ?_⟩
        intro c hc
        simp at hc
        rcases hc with rfl | hc
        · exact hb
        · exact h2 c hc
    · rintro ⟨h1, h2⟩
      cases e with
      | nil => exact Or.inl rfl
      | cons b y =>
        refine Or.inr ⟨[b], y, rfl, ⟨b, rfl, h2 b (by simp)⟩, (ih y).mpr ⟨?_, ?_⟩⟩
        · simp at h1; omega
        · exact fun c hc => h2 c (List.mem_cons_of_mem _ hc)

theorem lang_star_cls (p : Nat → Bool) (e : GoString) :
    (Regex.star (.cls p)).Lang e ↔ ∀ b ∈ e, p b.toNat = true := by
  constructor
  · rintro ⟨xs, rfl, h⟩ b hb
    obtain ⟨x, hx, hb⟩ := List.mem_flatten.mp hb
    obtain ⟨c, rfl, hc⟩ := h x hx
    simp at hb; subst hb; exact hc
  · intro h
    refine ⟨e.map fun b => [b], ?_, ?_⟩
    · induction e with
      | nil => rfl
      | cons b e ih =>
        rw [List.map_cons, List.flatten_cons, ← ih (fun c hc => h c (List.mem_cons_of_mem _ hc))]; rfl
    · intro x hx
      obtain ⟨b, hb, rfl⟩ := List.mem_map.mp hx
      exact ⟨b, rfl, h b hb⟩

theorem param_iff (p : GoString) : Param p ↔ p.length ≤ 4 ∧ ∀ b ∈ p, isDigit b.toNat = true := by
  simp [Param, isDigit]

theorem lang_params (e : GoString) : ansiParams.Lang e ↔ Params e := by
  have h3 : ∀ x, (Regex.cat (.cls isSemi) (.upToSucc (.cls isDigit) 3)).Lang x ↔
      ∃ q, Param q ∧ x = 0x3B :: q := by
    intro x
    constructor
    · rintro ⟨y, z, rfl, ⟨b, rfl, hb⟩, hz⟩
      rw [lang_upToSucc] at hz
      have : b = 0x3B := by
        apply UInt8.toNat_inj.mp; simpa [isSemi] using hb
      subst this
      exact ⟨z, (param_iff z).mpr hz, rfl⟩
    · rintro ⟨q, hq, rfl⟩
      exact ⟨[0x3B], q, rfl, ⟨_, rfl, by decide⟩, (lang_upToSucc _ _ _).mpr ((param_iff q).mp hq)⟩
  constructor
  · rintro ⟨x, y, rfl, ⟨x1, x2, rfl, ⟨b, rfl, hb⟩, h2⟩, xs, rfl, hxs⟩
    rw [lang_upToSucc] at h2
    refine ⟨[b] ++ x2, xs.map List.tail, by simp, ?_, ?_, ?_⟩
    · rw [param_iff]
      refine ⟨by simp; omega, ?_⟩
      intro c hc
      simp at hc
      rcases hc with rfl | hc
      · exact hb
      · exact h2.2 c hc
    · intro q hq
      obtain ⟨x, hx, rfl⟩ := List.mem_map.mp hq
      obtain ⟨q, hq', rfl⟩ := (h3 x).mp (hxs x hx)
      exact hq'
    · congr 1
      induction xs with
      | nil => rfl
      | cons x xs ih =>
        obtain ⟨q, hq, rfl⟩ := (h3 x).mp (hxs x (by simp))
        rw [List.flatten_cons, List.map_cons, List.flatMap_cons,
          ih (fun y hy => hxs y (List.mem_cons_of_mem _ hy))]
        rfl
  · rintro ⟨d, ds, h0, hd, hds, rfl⟩
    obtain ⟨b, d', rfl⟩ := List.exists_cons_of_ne_nil h0
    rw [param_iff] at hd
    refine ⟨b :: d', _, rfl, ⟨[b], d', rfl, ⟨b, rfl, hd.2 b (by simp)⟩, (lang_upToSucc _ _ _).mpr ⟨?_, ?_⟩⟩, ?_⟩
    · have := hd.1; simp at this; omega
    · exact fun c hc => hd.2 c (List.mem_cons_of_mem _ hc)
    · refine ⟨ds.map fun x => 0x3B :: x, by rw [List.flatMap_def], ?_⟩
      intro x hx
      obtain ⟨q, hq, rfl⟩ := List.mem_map.mp hx
      exact (h3 _).mpr ⟨q, hds q hq, rfl⟩

/-- What follows the introducer, as specified. -/
def EscapeBody (e : GoString) : Prop :=
  ∃ pre params fin, e = pre ++ (params ++ [fin]) ∧ (∀ b ∈ pre, b ∈ lit "[()#;?") ∧
    (params = [] ∨ Params params) ∧ fin ∈ lit "0123456789ABCDEFGHIJKLMNORZcfghijklmnqry=><"

theorem byte_forall (P : UInt8 → Bool) (h : ((List.range 256).all fun n => P (UInt8.ofNat n)) = true) (b : UInt8) :
    P b = true := by
  have := List.all_eq_true.mp h b.toNat (by rw [List.mem_range]; exact b.toNat_lt)
  simpa using this

theorem ansiPrefix_iff (b : UInt8) : ansiPrefix b.toNat = true ↔ b ∈ lit "[()#;?" := by
  have := byte_forall (fun b => ansiPrefix b.toNat == decide (b ∈ lit "[()#;?")) (by decide +kernel) b
  simp only [beq_iff_eq] at this
  rw [this, decide_eq_true_eq]

theorem ansiFinal_iff (b : UInt8) :
    ansiFinal b.toNat = true ↔ b ∈ lit "0123456789ABCDEFGHIJKLMNORZcfghijklmnqry=><" := by
  have := byte_forall (fun b => ansiFinal b.toNat ==
    decide (b ∈ lit "0123456789ABCDEFGHIJKLMNORZcfghijklmnqry=><")) (by decide +kernel) b
  simp only [beq_iff_eq] at this
  rw [this, decide_eq_true_eq]

theorem lang_body (e : GoString) : ansiTail.Lang e ↔ EscapeBody e := by
  constructor
  · rintro ⟨x, y, rfl, hx, p, z, rfl, hp, b, rfl, hb⟩
    rw [lang_star_cls] at hx
    refine ⟨x, p, b, rfl, fun c hc => (ansiPrefix_iff c).mp (hx c hc), ?_, (ansiFinal_iff b).mp hb⟩
    rcases hp with rfl | hp
    · exact Or.inl rfl
    · exact Or.inr ((lang_params p).mp hp)
  · rintro ⟨x, p, b, rfl, hx, hp, hb⟩
    refine ⟨x, _, rfl, (lang_star_cls _ _).mpr fun c hc => (ansiPrefix_iff c).mpr (hx c hc), p, [b], rfl, ?_,
      b, rfl, (ansiFinal_iff b).mpr hb⟩
    rcases hp with rfl | hp
    · exact Or.inl rfl
    · exact Or.inr ((lang_params p).mpr hp)

theorem escape_iff (e : GoString) :
    EscapeSequence e ↔ ∃ lead body, e = lead ++ body ∧ lead ∈ introducers ∧ EscapeBody body := by
  constructor
  · rintro ⟨lead, pre, ps, fin, rfl, hl, h1, h2, h3⟩
    exact ⟨lead, _, rfl, hl, pre, ps, fin, rfl, h1, h2, h3⟩
  · rintro ⟨lead, _, rfl, hl, pre, ps, fin, rfl, h1, h2, h3⟩
    exact ⟨lead, pre, ps, fin, rfl, hl, h1, h2, h3⟩

theorem run_lead (s m : GoString) :
    m ∈ (Regex.cls ansiLead).run s ↔ ∃ lead ∈ introducers, s = lead ++ m := by
  constructor
  · intro hm
    cases s with
    | nil => simp [Regex.run] at hm
    | cons b t =>
      rw [Regex.run] at hm
      split at hm
      · rename_i hl
        simp only [List.mem_singleton] at hm
        have hpre := decodeRune_prefix (b :: t) (by simp)
        simp only [ansiLead, Bool.or_eq_true, beq_iff_eq] at hl
        rcases hpre with h | ⟨_, h2, h3⟩
        · rw [h] at hl; simp [runeError] at hl
        · obtain ⟨u, hu⟩ := h3
          rw [h2] at hm
          rcases hl with hl | hl
          · rw [hl] at hm hu
            have he : encode 0x1b = [0x1B] := by decide +kernel
            rw [he] at hm hu
            refine ⟨[0x1B], by simp [introducers], ?_⟩
            rw [hm, ← hu]; rfl
          · rw [hl] at hm hu
            have he : encode 0x9b = [0xC2, 0x9B] := by decide +kernel
            rw [he] at hm hu
            refine ⟨[0xC2, 0x9B], by simp [introducers], ?_⟩
            rw [hm, ← hu]; rfl
      · simp at hm
  · rintro ⟨lead, hl, rfl⟩
    simp only [introducers, List.mem_cons, List.not_mem_nil, or_false] at hl
    rcases hl with rfl | rfl
    · rw [List.singleton_append, run_cls_ascii _ _ _ (by decide)]; simp [ansiLead]
    · have hd : decodeRune ([0xC2, 0x9B] ++ m) = (0x9B, 2) := rfl
      show m ∈ (Regex.cls ansiLead).run (0xC2 :: ([0x9B] ++ m))
      rw [Regex.run]
      have hd' : decodeRune (0xC2 :: ([0x9B] ++ m)) = (0x9B, 2) := hd
      rw [hd']
      simp [ansiLead]

/-- The matches at the start of a text are the escape sequences it starts with. -/
theorem run_escape (s r : GoString) : r ∈ ansiEscapeRE.run s ↔ ∃ e, EscapeSequence e ∧ s = e ++ r := by
  have h : ansiEscapeRE = .cat (.cls ansiLead) ansiTail := rfl
  rw [h, Regex.run, List.mem_flatMap]
  constructor
  · rintro ⟨m, hm, hr⟩
    obtain ⟨lead, hl, rfl⟩ := (run_lead _ _).mp hm
    obtain ⟨e, he, rfl⟩ := (Regex.run_lang _ ansiTail_ascii _ _).mp hr
    exact ⟨lead ++ e, (escape_iff _).mpr ⟨lead, e, rfl, hl, (lang_body e).mp he⟩, by simp⟩
  · rintro ⟨e, he, rfl⟩
    obtain ⟨lead, body, rfl, hl, hb⟩ := (escape_iff e).mp he
    exact ⟨body ++ r, (run_lead _ _).mpr ⟨lead, hl, by simp⟩,
      (Regex.run_lang _ ansiTail_ascii _ _).mpr ⟨body, (lang_body _).mpr hb, rfl⟩⟩

/-! ## The preferred match is the longest -/

/-- The first character satisfies `p`. -/
def StartsWith (p : Nat → Bool) (s : GoString) : Prop := ∃ b t, s = b :: t ∧ b.toNat < 0x80 ∧ p b.toNat = true

/-- Shorter remainder first, and every later one starts with a character of the class. -/
def Ordered (p : Nat → Bool) (x y : GoString) : Prop := x.length < y.length ∧ StartsWith p y

def Ascii (p : Nat → Bool) : Prop := ∀ r, p r = true → 0x20 ≤ r ∧ r ≤ 0x7E

theorem run_cls_cases (p : Nat → Bool) (hp : Ascii p) (s : GoString) :
    (∃ b t, s = b :: t ∧ b.toNat < 0x80 ∧ p b.toNat = true ∧ (Regex.cls p).run s = [t]) ∨
      (Regex.cls p).run s = [] := by
  cases s with
  | nil => right; rfl
  | cons b t =>
    by_cases h : p (decodeRune (b :: t)).1 = true
    · left
      obtain ⟨hb, hd⟩ := decodeRune_lt_80 b t (by have := hp _ h; omega)
      rw [hd] at h
      exact ⟨b, t, rfl, hb, h, by rw [run_cls_ascii _ _ _ hb, if_pos h]⟩
    · right
      rw [Regex.run]
      simp [h]

theorem upToSucc_ordered (p : Nat → Bool) (hp : Ascii p) (n : Nat) (s : GoString) :
    ((Regex.upToSucc (.cls p) n).run s).Pairwise (Ordered p) := by
  induction n generalizing s with
  | zero =>
    rw [Regex.upToSucc, Regex.run]
    rcases run_cls_cases p hp s with ⟨b, t, rfl, hb, hpb, h⟩ | h
    · rw [h]
      rw [List.pairwise_append]
      refine ⟨by simp, by simp, ?_⟩
      intro x hx y hy
      simp only [List.mem_singleton] at hx hy
      subst hx hy
      exact ⟨by simp, b, x, rfl, hb, hpb⟩
    · rw [h]; simp
  | succ n ih =>
    rw [Regex.upToSucc, Regex.run]
    rcases run_cls_cases p hp s with ⟨b, t, rfl, hb, hpb, h⟩ | h
    · rw [Regex.run, h, List.flatMap_cons, List.flatMap_nil, List.append_nil, List.pairwise_append]
      refine ⟨ih t, by simp, ?_⟩
      intro x hx y hy
      simp only [List.mem_singleton] at hy
      subst hy
      have := (Regex.run_suffix _ _ _ hx).length_le
      exact ⟨by simp; omega, b, t, rfl, hb, hpb⟩
    · rw [run_cat_none h]; simp

theorem starRun_none {f : GoString → List GoString} {s : GoString} (h : f s = []) : starRun f s = [s] := by
  rw [starRun, h]; rfl

theorem star_cls_ordered (p : Nat → Bool) (hp : Ascii p) (s : GoString) :
    ((Regex.star (.cls p)).run s).Pairwise (Ordered p) := by
  rw [Regex.run]
  induction hn : s.length using Nat.strongRecOn generalizing s with
  | _ n ih =>
    rcases run_cls_cases p hp s with ⟨b, t, rfl, hb, hpb, h⟩ | h
    · rw [starRun, h, List.flatMap_cons, List.flatMap_nil, List.append_nil, dif_pos (by simp),
        List.pairwise_append]
      refine ⟨ih _ (by rw [← hn]; simp) t rfl, by simp, ?_⟩
      intro x hx y hy
      simp only [List.mem_singleton] at hy
      subst hy
      have := (starRun_suffix _ (fun s r hr => Regex.run_suffix (.cls p) s r hr) t x hx).length_le
      exact ⟨by simp; omega, b, t, rfl, hb, hpb⟩
    · rw [starRun_none h]; simp

theorem ascii_digit : Ascii isDigit := by
  intro r h; simp only [isDigit, Bool.and_eq_true, decide_eq_true_eq] at h; omega
theorem ascii_semi : Ascii isSemi := by
  intro r h; simp only [isSemi, beq_iff_eq] at h; omega
theorem ascii_prefix : Ascii ansiPrefix := by
  intro r h; simp only [ansiPrefix, Bool.or_eq_true, beq_iff_eq] at h; omega
theorem ascii_final : Ascii ansiFinal := by
  intro r h
  simp only [ansiFinal, Bool.or_eq_true, beq_iff_eq, Bool.and_eq_true, decide_eq_true_eq] at h
  omega

theorem run_cls_none (p q : Nat → Bool) (hpq : ∀ r, q r = true → p r = false) {s : GoString}
    (h : StartsWith q s) : (Regex.cls p).run s = [] := by
  obtain ⟨b, t, rfl, hb, hq⟩ := h
  rw [run_cls_ascii _ _ _ hb, hpq _ hq]; rfl

/-- Shorter remainder first. -/
def Shorter (x y : GoString) : Prop := x.length < y.length

theorem semi_digits_ordered (s : GoString) :
    ((Regex.cat (.cls isSemi) (.upToSucc (.cls isDigit) 3)).run s).Pairwise (Ordered isDigit) := by
  rw [Regex.run]
  rcases run_cls_cases isSemi ascii_semi s with ⟨b, t, rfl, hb, hpb, h⟩ | h
  · rw [h, List.flatMap_cons, List.flatMap_nil, List.append_nil]
    exact upToSucc_ordered _ ascii_digit _ _
  · rw [h]; simp

theorem digit_not_semi (r : Nat) (h : isDigit r = true) : isSemi r = false := by
  simp only [isDigit, isSemi, Bool.and_eq_true, decide_eq_true_eq, beq_eq_false_iff_ne] at *; omega

theorem more_run_digit {s : GoString} (h : StartsWith isDigit s) :
    starRun (Regex.cat (.cls isSemi) (.upToSucc (.cls isDigit) 3)).run s = [s] :=
  starRun_none (run_cat_none (run_cls_none _ _ digit_not_semi h))

theorem more_shorter (s : GoString) :
    ((Regex.star (.cat (.cls isSemi) (.upToSucc (.cls isDigit) 3))).run s).Pairwise Shorter := by
  rw [Regex.run]
  induction hn : s.length using Nat.strongRecOn generalizing s with
  | _ n ih =>
    rw [starRun, List.pairwise_append]
    refine ⟨?_, by simp, ?_⟩
    · rw [List.pairwise_flatMap]
      refine ⟨?_, ?_⟩
      · intro s' _
        split
        · exact ih _ (by omega) s' rfl
        · simp
      · refine (semi_digits_ordered s).imp ?_
        rintro x y ⟨hlt, hy⟩ u hu v hv
        split at hu
        · have hul := (starRun_suffix _ (Regex.run_suffix _) _ _ hu).length_le
          split at hv
          · rw [more_run_digit hy] at hv
            simp only [List.mem_singleton] at hv
            subst hv
            simp only [Shorter]; omega
          · simp at hv
        · simp at hu
    · intro x hx y hy
      simp only [List.mem_singleton] at hy
      subst hy
      rw [List.mem_flatMap] at hx
      obtain ⟨s', hs', hx⟩ := hx
      split at hx
      · have := (starRun_suffix _ (Regex.run_suffix _) _ _ hx).length_le
        simp only [Shorter]; omega
      · simp at hx

theorem params_shorter (s : GoString) : (ansiParams.run s).Pairwise Shorter := by
  rw [ansiParams, Regex.run, List.pairwise_flatMap]
  refine ⟨fun m _ => more_shorter m, ?_⟩
  have hord : ((Regex.cat (.cls isDigit) (.upToSucc (.cls isDigit) 2)).run s).Pairwise (Ordered isDigit) := by
    rw [Regex.run]
    rcases run_cls_cases isDigit ascii_digit s with ⟨b, t, rfl, hb, hpb, h⟩ | h
    · rw [h, List.flatMap_cons, List.flatMap_nil, List.append_nil]
      exact upToSucc_ordered _ ascii_digit _ _
    · rw [h]; simp
  refine hord.imp ?_
  rintro x y ⟨hlt, hy⟩ u hu v hv
  have hul := (Regex.run_suffix _ _ _ hu).length_le
  rw [Regex.run, more_run_digit hy] at hv
  simp only [List.mem_singleton] at hv
  subst hv
  simp only [Shorter]; omega

theorem params_run_lt (s r : GoString) (h : r ∈ ansiParams.run s) : r.length < s.length := by
  rw [ansiParams, Regex.run, List.mem_flatMap] at h
  obtain ⟨m, hm, hr⟩ := h
  rw [Regex.run, List.mem_flatMap] at hm
  obtain ⟨m', hm', hm⟩ := hm
  have h1 := cls_run_lt _ _ _ hm'
  have h2 := (Regex.run_suffix _ _ _ hm).length_le
  have h3 := (Regex.run_suffix _ _ _ hr).length_le
  omega

theorem run_final_eq {m x : GoString} (h : x ∈ (Regex.cls ansiFinal).run m) : m.length = x.length + 1 := by
  rcases run_cls_cases ansiFinal ascii_final m with ⟨b, t, rfl, hb, hpb, h'⟩ | h'
  · rw [h'] at h; simp at h; subst h; rfl
  · rw [h'] at h; simp at h

theorem rest_shorter (s : GoString) :
    ((Regex.cat (.opt ansiParams) (.cls ansiFinal)).run s).Pairwise Shorter := by
  rw [Regex.run, List.pairwise_flatMap]
  refine ⟨?_, ?_⟩
  · intro m _
    rcases run_cls_cases ansiFinal ascii_final m with ⟨b, t, rfl, hb, hpb, h⟩ | h <;> rw [h] <;> simp
  · have : ((Regex.opt ansiParams).run s).Pairwise Shorter := by
      rw [Regex.run, List.pairwise_append]
      refine ⟨params_shorter s, by simp, ?_⟩
      intro x hx y hy
      simp only [List.mem_singleton] at hy
      subst hy
      exact params_run_lt _ _ hx
    refine this.imp ?_
    intro x y hlt u hu v hv
    have h1 := run_final_eq hu
    have h2 := run_final_eq hv
    simp only [Shorter] at *; omega

theorem prefix_not_final (r : Nat) (h : ansiPrefix r = true) : ansiFinal r = false := by
  by_contra hc
  simp only [Bool.not_eq_false] at hc
  simp only [ansiPrefix, ansiFinal, Bool.or_eq_true, beq_iff_eq, Bool.and_eq_true, decide_eq_true_eq] at h hc
  omega

theorem prefix_not_digit (r : Nat) (h : ansiPrefix r = true) : isDigit r = false := by
  by_contra hc
  simp only [Bool.not_eq_false] at hc
  simp only [ansiPrefix, isDigit, Bool.or_eq_true, beq_iff_eq, Bool.and_eq_true, decide_eq_true_eq] at h hc
  omega

theorem tail_shorter (s : GoString) : (ansiTail.run s).Pairwise Shorter := by
  rw [ansiTail, Regex.run, List.pairwise_flatMap]
  refine ⟨fun m _ => rest_shorter m, ?_⟩
  refine (star_cls_ordered _ ascii_prefix s).imp ?_
  rintro x y ⟨_, hy⟩ u hu v hv
  exfalso
  rw [Regex.run, List.mem_flatMap] at hv
  obtain ⟨m, hm, hv⟩ := hv
  have hp : ansiParams.run y = [] := run_cat_none (run_cat_none (run_cls_none _ _ prefix_not_digit hy))
  rw [Regex.run, hp] at hm
  simp only [List.nil_append, List.mem_singleton] at hm
  subst hm
  rw [run_cls_none _ _ prefix_not_final hy] at hv
  simp at hv

theorem escape_shorter (s : GoString) : (ansiEscapeRE.run s).Pairwise Shorter := by
  have h : ansiEscapeRE = .cat (.cls ansiLead) ansiTail := rfl
  rw [h, Regex.run]
  cases s with
  | nil => simp [Regex.run]
  | cons b t =>
    rw [show (Regex.cls ansiLead).run (b :: t) = if ansiLead (decodeRune (b :: t)).1 then
      [(b :: t).drop (decodeRune (b :: t)).2] else [] from rfl]
    split
    · rw [List.flatMap_cons, List.flatMap_nil, List.append_nil]
      exact tail_shorter _
    · simp

/-- The preferred match is the longest escape sequence at the start. -/
theorem run_longest {s rest : GoString} {tl : List GoString} (h : ansiEscapeRE.run s = rest :: tl) :
    ∃ e, s = e ++ rest ∧ LongestEscape s e := by
  obtain ⟨e, he, hs⟩ := (run_escape s rest).mp (by rw [h]; simp)
  refine ⟨e, hs, he, ⟨rest, hs.symm⟩, ?_⟩
  rintro e' he' ⟨r', hr'⟩
  have hmem : r' ∈ ansiEscapeRE.run s := (run_escape s r').mpr ⟨e', he', hr'.symm⟩
  have hsort := escape_shorter s
  rw [h] at hmem hsort
  have hl1 : s.length = e.length + rest.length := by rw [hs]; simp
  have hl2 : s.length = e'.length + r'.length := by rw [← hr']; simp
  rcases List.mem_cons.mp hmem with rfl | hmem
  · omega
  · have := (List.pairwise_cons.mp hsort).1 r' hmem
    simp only [Shorter] at this
    omega

theorem run_none {s : GoString} (h : ansiEscapeRE.run s = []) (e : GoString) (he : EscapeSequence e) :
    ¬ e <+: s := by
  rintro ⟨r, hr⟩
  have := (run_escape s r).mpr ⟨e, he, hr.symm⟩
  rw [h] at this
  simp at this

/-! ## Cutting a text -/

theorem encode_tail_cont (r : Nat) (h : Scalar r) (b : UInt8) (t : GoString) (he : encode r = b :: t) :
    ∀ c ∈ t, isCont c = true := by
  have hr : r ≤ 0x10FFFF := by unfold Scalar at h; omega
  unfold encode at he
  have hc : ∀ n, n < 64 → isCont (UInt8.ofNat (0x80 + n)) = true := by
    intro n hn
    simp only [isCont, toNat_ofNat_lt (show 0x80 + n < 256 by omega), Bool.and_eq_true, decide_eq_true_eq]
    omega
  repeat' split at he
  all_goals
    obtain ⟨-, rfl⟩ := List.cons.inj he
    intro c hc'
    simp only [List.mem_cons, List.not_mem_nil, or_false] at hc'
  · subst hc'; exact hc _ (Nat.mod_lt _ (by decide))
  · rcases hc' with rfl | rfl <;> exact hc _ (Nat.mod_lt _ (by decide))
  · rcases hc' with rfl | rfl | rfl <;> exact hc _ (Nat.mod_lt _ (by decide))

/-- Inside the bytes of one rune there are only continuation bytes. -/
theorem decodeRune_inner (s : GoString) (hs : s ≠ []) (i : Nat) (h0 : 0 < i) (hi : i < (decodeRune s).2)
    (b : UInt8) (hb : s[i]? = some b) : isCont b = true := by
  rcases decodeRune_prefix s hs with h | ⟨h1, h2, u, hu⟩
  · rw [h] at hi; simp at hi; omega
  · rw [h2] at hi
    rw [← hu, List.getElem?_append_left hi] at hb
    cases he : encode (decodeRune s).1 with
    | nil => rw [he] at hi; simp at hi
    | cons c t =>
      rw [he] at hb
      apply encode_tail_cont _ h1 c t he
      obtain ⟨j, rfl⟩ : ∃ j, i = j + 1 := ⟨i - 1, by omega⟩
      rw [List.getElem?_cons_succ] at hb
      exact List.mem_of_getElem? hb

theorem escape_starts {e : GoString} (he : EscapeSequence e) : ∃ b t, e = b :: t ∧ isCont b = false := by
  obtain ⟨lead, body, rfl, hl, _⟩ := (escape_iff e).mp he
  simp only [introducers, List.mem_cons, List.not_mem_nil, or_false] at hl
  rcases hl with rfl | rfl
  · exact ⟨_, _, rfl, by decide⟩
  · exact ⟨_, _, rfl, by decide⟩

/-- The text before the first escape sequence, and the escape sequences with the text after each. -/
def cutLoop (acc s : GoString) : GoString × List (GoString × GoString) :=
  match _hm : ansiEscapeRE.run s with
  | rest :: _ =>
    let r := cutLoop [] rest
    (acc, (s.take (s.length - rest.length), r.1) :: r.2)
  | [] =>
    if _h : s = [] then (acc, [])
    else cutLoop (acc ++ s.take (decodeRune s).2) (s.drop (decodeRune s).2)
termination_by s.length
decreasing_by
  · exact ansiEscapeRE_run_lt s rest (by rw [_hm]; simp)
  · have := decodeRune_size s _h
    simp; omega

theorem cutLoop_match {acc s rest : GoString} {tl : List GoString} (h : ansiEscapeRE.run s = rest :: tl) :
    cutLoop acc s = (acc, (s.take (s.length - rest.length), (cutLoop [] rest).1) :: (cutLoop [] rest).2) := by
  rw [cutLoop.eq_1]
  split
  · rename_i r t hm
    rw [h] at hm
    obtain ⟨rfl, rfl⟩ := List.cons.inj hm
    rfl
  · rename_i hm; rw [h] at hm; simp at hm

theorem cutLoop_none {acc s : GoString} (h : ansiEscapeRE.run s = []) (hs : s ≠ []) :
    cutLoop acc s = cutLoop (acc ++ s.take (decodeRune s).2) (s.drop (decodeRune s).2) := by
  rw [cutLoop.eq_1]
  split
  · rename_i r t hm; rw [h] at hm; simp at hm
  · rw [dif_neg hs]

theorem cutLoop_nil (acc : GoString) : cutLoop acc [] = (acc, []) := by
  rw [cutLoop.eq_1]
  split
  · rename_i r t hm; rw [run_nil] at hm; simp at hm
  · simp

/-- No escape sequence starts at the first character, none inside it, none in `t`. -/
theorem noneStartsIn_step {s t rest : GoString} (hs : s ≠ []) (hrun : ansiEscapeRE.run s = [])
    (hsplit : s.drop (decodeRune s).2 = t ++ rest) (ht : NoneStartsIn t rest) :
    NoneStartsIn (s.take (decodeRune s).2 ++ t) rest := by
  intro x y hxy hy e he hpre
  have hsz := decodeRune_size s hs
  have hs' : s = s.take (decodeRune s).2 ++ t ++ rest := by
    rw [List.append_assoc, ← hsplit, List.take_append_drop]
  have htl : (s.take (decodeRune s).2).length = (decodeRune s).2 := by rw [List.length_take]; omega
  by_cases hx : x = []
  · subst hx
    rw [List.nil_append] at hxy
    rw [← hxy, ← hs'] at hpre
    exact run_none hrun e he hpre
  · by_cases hlen : x.length < (decodeRune s).2
    · obtain ⟨b, u, rfl, hb⟩ := escape_starts he
      obtain ⟨v, hv⟩ := hpre
      have h1 : s[x.length]? = some b := by
        rw [hs', hxy, List.append_assoc, ← hv, List.getElem?_append_right (by omega)]
        simp
      have := decodeRune_inner s hs x.length (List.length_pos_iff.mpr hx) hlen b h1
      rw [hb] at this
      simp at this
    · have : ∃ x', x = s.take (decodeRune s).2 ++ x' := by
        have h2 : (s.take (decodeRune s).2) <+: x := by
          refine List.prefix_of_prefix_length_le (l₃ := x ++ y) ?_ (List.prefix_append _ _) (by omega)
          rw [← hxy]; exact List.prefix_append _ _
        obtain ⟨x', hx'⟩ := h2
        exact ⟨x', hx'.symm⟩
      obtain ⟨x', rfl⟩ := this
      rw [List.append_assoc] at hxy
      exact ht x' y (List.append_cancel_left hxy) hy e he hpre

theorem noneStartsIn_nil (rest : GoString) : NoneStartsIn [] rest := by
  intro x y h hy
  have := List.append_eq_nil_iff.mp h.symm
  exact absurd this.2 hy

theorem cutLoop_acc (acc s : GoString) : cutLoop acc s = (acc ++ (cutLoop [] s).1, (cutLoop [] s).2) := by
  induction hn : s.length using Nat.strongRecOn generalizing acc s with
  | _ n ih =>
    by_cases hs : s = []
    · subst hs; simp [cutLoop_nil]
    cases hm : ansiEscapeRE.run s with
    | cons rest tl => rw [cutLoop_match hm, cutLoop_match hm]; simp
    | nil =>
      have hsz := decodeRune_size s hs
      rw [cutLoop_none hm hs, cutLoop_none hm hs]
      rw [ih _ (by rw [← hn, List.length_drop]; omega) (acc ++ s.take (decodeRune s).2) _ rfl,
        ih _ (by rw [← hn, List.length_drop]; omega) ([] ++ s.take (decodeRune s).2) _ rfl]
      simp

/-- Cutting is possible. -/
theorem cut_exists (s : GoString) : Cut s (cutLoop [] s).1 (cutLoop [] s).2 := by
  induction hn : s.length using Nat.strongRecOn generalizing s with
  | _ n ih =>
    by_cases hs : s = []
    · subst hs
      rw [cutLoop_nil]
      exact Cut.plain _ (noneStartsIn_nil _)
    cases hm : ansiEscapeRE.run s with
    | cons rest tl =>
      obtain ⟨e, hse, hlong⟩ := run_longest hm
      have hlt := ansiEscapeRE_run_lt s rest (by rw [hm]; simp)
      have hcut := ih _ (by omega) rest rfl
      rw [cutLoop_match hm]
      have he : s.take (s.length - rest.length) = e := by rw [hse]; simp
      rw [he]
      have := Cut.escape [] e rest _ _ (noneStartsIn_nil _) (by rw [← hse]; exact hlong) hcut
      rw [List.nil_append, ← hse] at this
      exact this
    | nil =>
      have hsz := decodeRune_size s hs
      have hcut := ih _ (by rw [← hn, List.length_drop]; omega) (s.drop (decodeRune s).2) rfl
      rw [cutLoop_none hm hs, List.nil_append, cutLoop_acc]
      generalize (cutLoop [] (s.drop (decodeRune s).2)).1 = t at *
      generalize (cutLoop [] (s.drop (decodeRune s).2)).2 = l at *
      generalize hd : s.drop (decodeRune s).2 = d at *
      cases hcut with
      | plain _ hnone =>
        have hfin := noneStartsIn_step (rest := []) hs hm (by rw [hd, List.append_nil]) hnone
        rw [← hd, List.take_append_drop] at hfin ⊢
        exact Cut.plain _ hfin
      | escape _ e s' t' l hnone hlong hc =>
        have hfin := noneStartsIn_step hs hm hd hnone
        have := Cut.escape _ e s' t' l hfin hlong hc
        have he : s = s.take (decodeRune s).2 ++ t ++ (e ++ s') := by
          rw [List.append_assoc, ← hd, List.take_append_drop]
        rw [← he] at this
        exact this

theorem cut_whole {s t0 : GoString} {l : List (GoString × GoString)} (h : Cut s t0 l) :
    s = t0 ++ l.flatMap fun p => p.1 ++ p.2 := by
  induction h with
  | plain t _ => simp
  | escape t e s t' l _ _ _ ih => rw [List.flatMap_cons, List.append_assoc e t', ← ih]

theorem longest_unique {s e e' : GoString} (h : LongestEscape s e) (h' : LongestEscape s e') : e = e' := by
  have h1 := h.2.2 e' h'.1 h'.2.1
  have h2 := h'.2.2 e h.1 h.2.1
  exact (List.prefix_of_prefix_length_le h.2.1 h'.2.1 h2).eq_of_length (by omega)

theorem none_vs_escape {t e s t' rest : GoString} (h : t ++ (e ++ s) = t' ++ rest) (he : EscapeSequence e)
    (hn : NoneStartsIn t' rest) : t'.length ≤ t.length := by
  by_contra hlt
  have hp : t <+: t' := List.prefix_of_prefix_length_le (l₃ := t' ++ rest) (by rw [← h]; exact List.prefix_append _ _)
    (List.prefix_append _ _) (by omega)
  obtain ⟨y, rfl⟩ := hp
  rw [List.append_assoc] at h
  have h2 := List.append_cancel_left h
  refine hn t y rfl ?_ e he ?_
  · rintro rfl; simp at hlt
  · rw [← h2]; exact List.prefix_append _ _

/-- There is only one way to cut. -/
theorem cut_unique {s t0 t0' : GoString} {l l' : List (GoString × GoString)} (h : Cut s t0 l)
    (h' : Cut s t0' l') : t0 = t0' ∧ l = l' := by
  induction h generalizing t0' l' with
  | plain t hn =>
    generalize hst : t = s' at h'
    cases h' with
    | plain _ _ => exact ⟨rfl, rfl⟩
    | escape t2 e2 s2 t2' l2 hn2 hl2 _ =>
      exfalso
      have h1 := none_vs_escape (t := t0') (e := e2) (s := s2) (rest := []) (by rw [List.append_nil]; exact hst.symm) hl2.1 hn
      obtain ⟨b, u, hbu, _⟩ := escape_starts hl2.1
      have h2 := congrArg List.length hst
      rw [hbu] at h2
      simp at h2
      omega
  | escape t e s t' l hn hl hc ih =>
    generalize hst : t ++ (e ++ s) = s' at h'
    cases h' with
    | plain _ hn2 =>
      exfalso
      have h1 := none_vs_escape (t := t) (e := e) (s := s) (rest := []) (by rw [List.append_nil]; exact hst) hl.1 hn2
      obtain ⟨b, u, hbu, _⟩ := escape_starts hl.1
      have h2 := congrArg List.length hst
      rw [hbu] at h2
      simp at h2
      omega
    | escape t2 e2 s2 t2' l2 hn2 hl2 hc2 =>
      have h1 := none_vs_escape hst hl.1 hn2
      have h2 := none_vs_escape hst.symm hl2.1 hn
      have ht : t = t0' := by
        have := congrArg (List.take t.length) hst
        rw [List.take_left, List.take_left' (by omega)] at this
        exact this
      subst ht
      have h3 := List.append_cancel_left hst
      have he : e = e2 := by rw [h3] at hl; exact longest_unique hl hl2
      subst he
      have h4 := List.append_cancel_left h3
      subst h4
      obtain ⟨rfl, rfl⟩ := ih hc2
      exact ⟨rfl, rfl⟩

/-- What is subtracted, by the cut. -/
theorem cnt_cutLoop (s : GoString) : cnt s = ((cutLoop [] s).2.map fun p => p.1.length - 1).sum := by
  induction hn : s.length using Nat.strongRecOn generalizing s with
  | _ n ih =>
    by_cases hs : s = []
    · subst hs; simp [cutLoop_nil]
    cases hm : ansiEscapeRE.run s with
    | cons rest tl =>
      have hlt := ansiEscapeRE_run_lt s rest (by rw [hm]; simp)
      rw [cnt_match hm, cutLoop_match hm, ih _ (by omega) rest rfl]
      simp only [List.map_cons, List.sum_cons, List.length_take]
      omega
    | nil =>
      have hsz := decodeRune_size s hs
      rw [cnt_none hm hs, cutLoop_none hm hs, cutLoop_acc, ih _ (by rw [← hn, List.length_drop]; omega) _ rfl]

theorem cnt_cut {s t0 : GoString} {l : List (GoString × GoString)} (h : Cut s t0 l) :
    cnt s = (l.map fun p => p.1.length - 1).sum := by
  obtain ⟨-, rfl⟩ := cut_unique h (cut_exists s)
  exact cnt_cutLoop s

end GoTable
