import Verif.Proofs.PlainText
import Verif.Spec.Perceived
import Mathlib.Tactic.ByContra
/-!
# Proofs: characters with marks, flags, joined emoji
-/

namespace GoTable
open Spec

theorem classOf_zwj : classOf 0x200D = .zwj := by decide +kernel

/-- Nothing in the text so far joins a character, an emoji or a flag that follows. -/
def Closed (left : List GCB) : Prop :=
  left = [] ∨ (∃ d, left.getLast? = some d ∧ (d = .other ∨ d = .extPict ∨ d = .lv ∨ d = .lvt ∨ d = .extend ∨
    d = .spacingMark)) ∨
  ∃ p k, left = p ++ List.replicate (2 * k) .ri ∧ 0 < k ∧ p.getLast? ≠ some .ri

theorem ri_run_unique {p q : List GCB} {m n : Nat} (h : p ++ List.replicate m .ri = q ++ List.replicate n .ri)
    (hp : p.getLast? ≠ some .ri) (hq : q.getLast? ≠ some .ri) : m = n := by
  have h' := congrArg List.reverse h
  simp only [List.reverse_append, List.reverse_replicate] at h'
  have hp' : p.reverse.head? ≠ some .ri := by rwa [List.head?_reverse]
  have hq' : q.reverse.head? ≠ some .ri := by rwa [List.head?_reverse]
  revert h' hp' hq'
  generalize p.reverse = a
  generalize q.reverse = b
  clear h hp hq p q
  intro h ha hb
  induction m generalizing n with
  | zero =>
    cases n with
    | zero => rfl
    | succ n => simp [List.replicate_succ] at h; rw [h] at ha; simp at ha
  | succ m ih =>
    cases n with
    | zero => simp [List.replicate_succ] at h; rw [← h] at hb; simp at hb
    | succ n =>
      simp only [List.replicate_succ, List.cons_append, List.cons.injEq, true_and] at h
      rw [ih h]

theorem closed_breaks {left : List GCB} {c : GCB} (h : Closed left) (hne : left ≠ [])
    (hc : c = .other ∨ c = .extPict ∨ c = .lv ∨ c = .lvt ∨ c = .ri) : Breaks left c := by
  have h9 : ¬ GB9 c ∧ ¬ GB9a c := by rcases hc with rfl | rfl | rfl | rfl | rfl <;> simp [GB9, GB9a]
  have hlast : ∃ d, left.getLast? = some d ∧ (d = .other ∨ d = .extPict ∨ d = .lv ∨ d = .lvt ∨ d = .extend ∨
      d = .spacingMark ∨ d = .ri) := by
    rcases h with h | ⟨d, h, hd⟩ | ⟨p, k, h, hk, _⟩
    · exact absurd h hne
    · exact ⟨d, h, by rcases hd with h | h | h | h | h | h <;> simp [h]⟩
    · refine ⟨.ri, ?_, by simp⟩
      rw [h, List.getLast?_append, List.getLast?_replicate]
      simp [show 2 * k ≠ 0 by omega]
  obtain ⟨d, hd, hd'⟩ := hlast
  have h11 : ¬ GB11 left c := by
    rintro ⟨⟨p, k, e⟩, _⟩
    rw [e, List.getLast?_append] at hd
    simp at hd
    subst hd; simp at hd'
  have h12 : ¬ GB12_13 left c := by
    rintro ⟨⟨p, k, e, hp⟩, _⟩
    rcases h with h | ⟨d', h, hd⟩ | ⟨q, n, h, hn, hq⟩
    · exact hne h
    · rw [e, List.getLast?_append, List.getLast?_replicate] at h
      simp at h
      subst h; simp at hd
    · have := ri_run_unique (e.symm.trans h) hp hq
      omega
  refine ⟨?_, Or.inr (Or.inr ?_)⟩
  · rintro ⟨_, rfl⟩; simp at hc
  · simp only [h11, h12, GB6, GB7, GB8, h9, GB9b, hd]
    rcases hd' with rfl | rfl | rfl | rfl | rfl | rfl | rfl <;> rcases hc with rfl | rfl | rfl | rfl | rfl <;> simp

theorem no_break_mark {left : List GCB} {c d : GCB} (h : left.getLast? = some d)
    (hd : d ≠ .control ∧ d ≠ .cr ∧ d ≠ .lf) (hc : c = .extend ∨ c = .zwj ∨ c = .spacingMark) : ¬ Breaks left c := by
  rintro ⟨_, h1 | h1 | h1⟩
  · simp only [GB4, h] at h1
    rcases h1 with h1 | h1 | h1 <;> simp_all
  · rcases hc with rfl | rfl | rfl <;> simp [GB5] at h1
  · apply h1
    rcases hc with rfl | rfl | rfl <;> simp [GB9, GB9a]

/-- The classes that marks and what they go with have. -/
def Calm (d : GCB) : Prop := d ≠ .control ∧ d ≠ .cr ∧ d ≠ .lf

/-- Inside the characters of `u`, whatever precedes, there is no boundary. -/
def Together (L : List GCB) (u : List Nat) : Prop :=
  ∀ q c rest, u = q ++ c :: rest → q ≠ [] → ¬ Breaks (L ++ q.map classOf) (classOf c)

theorem calm_alone {r : Nat} (h : Alone r) : Calm (classOf r) := by
  rcases h with h | h | h | h <;> simp [Calm, h]

theorem calm_mark {r : Nat} (h : Mark r) : Calm (classOf r) := by
  rcases h with h | h <;> simp [Calm, h]

theorem together_snoc {L : List GCB} {u : List Nat} (h : Together L u) {c : Nat}
    (hc : u ≠ [] → ¬ Breaks (L ++ u.map classOf) (classOf c)) : Together L (u ++ [c]) := by
  intro q d rest e hq
  rcases List.eq_nil_or_concat rest with rfl | ⟨rest', x, rfl⟩
  · have := List.append_inj' e rfl
    obtain ⟨rfl, h2⟩ := this
    simp at h2
    subst h2
    exact hc hq
  · rw [List.concat_eq_append, ← List.cons_append, ← List.append_assoc] at e
    have := List.append_inj' e rfl
    exact h q d rest' this.1 hq

theorem together_marks {L : List GCB} {u marks : List Nat} (h : Together L u) (hu : u ≠ [])
    (hc : ∀ d, (u.map classOf).getLast? = some d → Calm d) (hm : ∀ m ∈ marks, Mark m) : Together L (u ++ marks) := by
  induction marks generalizing u with
  | nil => simpa using h
  | cons m marks ih =>
    rw [show u ++ m :: marks = (u ++ [m]) ++ marks by simp]
    refine ih (together_snoc h fun _ => ?_) (by simp) ?_ fun x hx => hm x (List.mem_cons_of_mem _ hx)
    · obtain ⟨d, hd⟩ : ∃ d, (u.map classOf).getLast? = some d := by
        cases e : (u.map classOf).getLast? with
        | none => simp at e; exact absurd e hu
        | some d => exact ⟨d, rfl⟩
      refine no_break_mark (d := d) ?_ (hc d hd) ?_
      · rw [List.getLast?_append, hd]; rfl
      · rcases hm m List.mem_cons_self with h | h <;> simp [h]
    · intro d hd
      simp at hd
      subst hd
      exact calm_mark (hm m List.mem_cons_self)

theorem together_singleton (L : List GCB) (r : Nat) : Together L [r] := by
  intro q c rest e hq
  cases q with
  | nil => exact absurd rfl hq
  | cons a q => simp at e

theorem joined_shape {u : List Nat} (h : JoinedEmoji u) :
    ∃ p r marks, u = p ++ r :: marks ∧ classOf r = .extPict ∧ ∀ m ∈ marks, classOf m = .extend := by
  cases h with
  | one r marks hr hm => exact ⟨[], r, marks, rfl, hr, hm⟩
  | join u r marks hu hr hm => exact ⟨u ++ [0x200D], r, marks, by simp, hr, hm⟩

theorem map_extend {marks : List Nat} (hm : ∀ m ∈ marks, classOf m = .extend) :
    marks.map classOf = List.replicate marks.length .extend := by
  rw [List.eq_replicate_iff]
  exact ⟨by simp, fun c hc => by obtain ⟨m, h, rfl⟩ := List.mem_map.mp hc; exact hm m h⟩

theorem joined_last {u : List Nat} (h : JoinedEmoji u) :
    u ≠ [] ∧ ∃ d, (u.map classOf).getLast? = some d ∧ (d = .extPict ∨ d = .extend) := by
  obtain ⟨p, r, marks, rfl, hr, hm⟩ := joined_shape h
  refine ⟨by simp, ?_⟩
  rw [List.map_append, List.map_cons, map_extend hm, List.getLast?_append, hr]
  cases marks with
  | nil => exact ⟨_, rfl, .inl rfl⟩
  | cons m marks =>
    rw [List.length_cons, List.getLast?_cons, List.getLast?_replicate]
    exact ⟨_, rfl, .inr rfl⟩

theorem together_joined (L : List GCB) {u : List Nat} (h : JoinedEmoji u) : Together L u := by
  induction h with
  | one r marks hr hm =>
    rw [show r :: marks = [r] ++ marks from rfl]
    refine together_marks (together_singleton L r) (by simp) ?_ fun m hm' => .inl (hm m hm')
    intro d hd
    simp [hr] at hd
    subst hd; simp [Calm]
  | join u r marks hu hr hm ih =>
    rw [show u ++ 0x200D :: r :: marks = (u ++ [0x200D] ++ [r]) ++ marks by simp]
    obtain ⟨hne, d, hd, hd'⟩ := joined_last hu
    refine together_marks (together_snoc (together_snoc ih fun _ => ?_) fun _ => ?_) (by simp) ?_
      fun m hm' => .inl (hm m hm')
    · refine no_break_mark (d := d) ?_ (by rcases hd' with rfl | rfl <;> simp) (.inr (.inl classOf_zwj))
      rw [List.getLast?_append, hd]; rfl
    · obtain ⟨p, x, ms, rfl, hx, hms⟩ := joined_shape hu
      rintro ⟨_, h1 | h1 | h1⟩
      · rw [List.map_append, List.map_singleton, ← List.append_assoc] at h1
        unfold GB4 at h1
        rw [List.getLast?_append] at h1
        simp [classOf_zwj] at h1
      · rw [hr] at h1; simp [GB5] at h1
      · apply h1
        have : GB11 (L ++ List.map classOf (p ++ x :: ms ++ [0x200D])) (classOf r) := by
          refine ⟨⟨L ++ p.map classOf, ms.length, ?_⟩, hr⟩
          simp [map_extend hms, hx, classOf_zwj]
        exact .inr (.inr (.inr (.inr (.inr (.inr (.inl this))))))
    · intro d hd
      simp [hr] at hd
      subst hd; simp [Calm]

theorem closed_marks {L : List GCB} {marks : List Nat} (h : Closed L) (hm : ∀ m ∈ marks, Mark m) :
    Closed (L ++ marks.map classOf) := by
  rcases List.eq_nil_or_concat marks with rfl | ⟨ms, x, rfl⟩
  · simpa using h
  · refine .inr (.inl ⟨classOf x, by simp, ?_⟩)
    rcases hm x (by simp) with h | h <;> simp [h]

theorem closed_ri {L : List GCB} (h : Closed L) : Closed (L ++ [.ri, .ri]) := by
  right; right
  rcases h with rfl | ⟨d, h, hd⟩ | ⟨p, k, rfl, hk, hp⟩
  · exact ⟨[], 1, rfl, by omega, by simp⟩
  · refine ⟨L, 1, rfl, by omega, ?_⟩
    rw [h]; rintro e; simp at e; subst e; simp at hd
  · refine ⟨p, k + 1, ?_, by omega, hp⟩
    rw [show 2 * (k + 1) = 2 * k + 2 by omega, ← List.replicate_append_replicate]
    simp

theorem no_break_ri {L : List GCB} (h : Closed L) : ¬ Breaks (L ++ [.ri]) .ri := by
  rintro ⟨_, h1 | h1 | h1⟩
  · simp [GB4] at h1
  · simp [GB5] at h1
  · apply h1
    have : GB12_13 (L ++ [.ri]) .ri := by
      refine ⟨?_, rfl⟩
      rcases h with rfl | ⟨d, h, hd⟩ | ⟨p, k, rfl, hk, hp⟩
      · exact ⟨[], 0, rfl, by simp⟩
      · refine ⟨L, 0, rfl, ?_⟩
        rw [h]; rintro e; simp at e; subst e; simp at hd
      · refine ⟨p, k, ?_, hp⟩
        rw [List.append_assoc, ← List.replicate_append_replicate]
        rfl
    simp [this]

theorem perceived_facts {u : List Nat} (h : Perceived u) {L : List GCB} (hL : Closed L) :
    Closed (L ++ u.map classOf) ∧ Together L u ∧ ∃ c rest, u = c :: rest ∧
      (classOf c = .other ∨ classOf c = .extPict ∨ classOf c = .lv ∨ classOf c = .lvt ∨ classOf c = .ri) := by
  cases h with
  | marked r marks hr hm =>
    refine ⟨?_, ?_, r, marks, rfl, ?_⟩
    · rw [List.map_cons, show L ++ classOf r :: marks.map classOf = (L ++ [classOf r]) ++ marks.map classOf by simp]
      refine closed_marks (.inr (.inl ⟨classOf r, by simp, ?_⟩)) hm
      rcases hr with h | h | h | h <;> simp [h]
    · rw [show r :: marks = [r] ++ marks from rfl]
      refine together_marks (together_singleton L r) (by simp) ?_ hm
      intro d hd
      simp at hd
      subst hd
      exact calm_alone hr
    · rcases hr with h | h | h | h <;> simp [h]
  | flag a b marks ha hb hm =>
    refine ⟨?_, ?_, a, b :: marks, rfl, by simp [ha]⟩
    · rw [List.map_cons, List.map_cons, ha, hb,
        show L ++ GCB.ri :: GCB.ri :: marks.map classOf = (L ++ [.ri, .ri]) ++ marks.map classOf by simp]
      exact closed_marks (closed_ri hL) hm
    · rw [show a :: b :: marks = ([a] ++ [b]) ++ marks from rfl]
      refine together_marks (together_snoc (together_singleton L a) fun _ => ?_) (by simp) ?_ hm
      · rw [List.map_singleton, ha, hb]
        exact no_break_ri hL
      · intro d hd
        simp [hb] at hd
        subst hd; simp [Calm]
  | emoji _ hu =>
    obtain ⟨hne, d, hd, hd'⟩ := joined_last hu
    refine ⟨.inr (.inl ⟨d, ?_, by rcases hd' with rfl | rfl <;> simp⟩), together_joined L hu, ?_⟩
    · rw [List.getLast?_append, hd]; rfl
    · clear hne hd hd' d
      induction hu with
      | one r marks hr hm => exact ⟨r, marks, rfl, by simp [hr]⟩
      | join u r marks hu hr hm ih =>
        obtain ⟨c, rest, e, h⟩ := ih
        exact ⟨c, rest ++ 0x200D :: r :: marks, by rw [e]; rfl, h⟩

theorem closed_units {us : List (List Nat)} (h : ∀ u ∈ us, Perceived u) {L : List GCB} (hL : Closed L) :
    Closed (L ++ us.flatten.map classOf) := by
  induction us generalizing L with
  | nil => simpa using hL
  | cons u us ih =>
    rw [List.flatten_cons, List.map_append, ← List.append_assoc]
    exact ih (fun x hx => h x (List.mem_cons_of_mem _ hx)) (perceived_facts (h u List.mem_cons_self) hL).1

theorem split_flatten {α : Type} (us : List (List α)) (i : Nat) (hi : i < us.flatten.length) :
    ∃ j q, us.flatten.take i = (us.take j).flatten ++ q ∧ ∃ c rest, us[j]? = some (q ++ c :: rest) ∧
      us.flatten[i]? = some c := by
  induction us generalizing i with
  | nil => simp at hi
  | cons u us ih =>
    by_cases h : i < u.length
    · refine ⟨0, u.take i, ?_, u[i], u.drop (i + 1), ?_, ?_⟩
      · simp [List.take_append, Nat.sub_eq_zero_of_le (Nat.le_of_lt h)]
      · simp
      · simp [List.getElem?_append_left h]
    · simp only [List.flatten_cons, List.length_append] at hi
      obtain ⟨j, q, h1, c, rest, h2, h3⟩ := ih (i - u.length) (by omega)
      refine ⟨j + 1, q, ?_, c, rest, by simpa using h2, ?_⟩
      · rw [List.flatten_cons, List.take_append, List.take_of_length_le (by omega), h1]; simp
      · rw [List.flatten_cons, List.getElem?_append_right (by omega), h3]

theorem pieces_perceived {us : List (List Nat)} (h : ∀ u ∈ us, Perceived u) : Pieces us.flatten us where
  all := rfl
  nonempty := by
    intro u hu e
    obtain ⟨c, rest, h1, _⟩ := (perceived_facts (h u hu) (.inl rfl : Closed [])).2.2
    rw [e] at h1; simp at h1
  cuts := by
    intro i h0 hi
    obtain ⟨j, q, h1, c, rest, h2, h3⟩ := split_flatten us i hi
    have hc : us.flatten[i] = c := by rw [List.getElem?_eq_getElem hi] at h3; simpa using h3
    have hmem : q ++ c :: rest ∈ us := List.mem_of_getElem? h2
    have hclosed : Closed (((us.take j).flatten).map classOf) := by
      have := closed_units (us := us.take j) (fun u hu => h u (List.mem_of_mem_take hu)) (.inl rfl : Closed [])
      simpa using this
    obtain ⟨_, htog, c', rest', he, hcl⟩ := perceived_facts (h _ hmem) hclosed
    unfold BoundaryAt
    rw [hc, h1, List.map_append]
    constructor
    · rintro ⟨k, hk⟩
      -- the prefix of `k` units ends inside or before unit `j`
      have hq : q = [] := by
        by_contra hq
        have hlen : ((us.take k).flatten).length = ((us.take j).flatten).length + q.length := by rw [hk]; simp
        have hpos : 0 < q.length := by cases q with
          | nil => exact absurd rfl hq
          | cons => simp
        have hj : j < us.length := (List.getElem?_eq_some_iff.mp h2).1
        rcases Nat.lt_or_ge j k with hjk | hjk
        · have h4 : (us.take (j + 1)).flatten.length ≤ (us.take k).flatten.length := by
            have : us.take k = us.take (j + 1) ++ (us.drop (j + 1)).take (k - (j + 1)) := by
              rw [← List.take_add]; congr 1; omega
            rw [this]; simp
          rw [List.take_add_one, h2] at h4
          simp at h4 hlen
          omega
        · have h4 : (us.take k).flatten.length ≤ (us.take j).flatten.length := by
            have : us.take j = us.take k ++ (us.drop k).take (j - k) := by
              rw [← List.take_add]; congr 1; omega
            rw [this]; simp
          omega
      subst hq
      simp only [List.nil_append, List.cons.injEq] at he
      rw [List.map_nil, List.append_nil]
      refine closed_breaks hclosed ?_ (he.1 ▸ hcl)
      intro e
      have := congrArg List.length h1
      rw [List.length_take, Nat.min_eq_left (Nat.le_of_lt hi), List.append_nil, ← List.length_map (f := classOf), e] at this
      simp at this
      omega
    · intro hb
      by_cases hq : q = []
      · subst hq; exact ⟨j, by simp⟩
      · exact absurd hb (htog q c rest rfl hq)

theorem pieceWidth_head (f : Flags) (r : Nat) (rest : List Nat) (h : plainWidth f r ≠ 0) :
    pieceWidth f (r :: rest) = plainWidth f r := by
  simp [pieceWidth, h]

end GoTable
