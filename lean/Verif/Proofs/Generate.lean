import Verif.Model.Generate
import Verif.Spec.Ranges
/-! Compaction of ranges. -/

namespace GoTable
open Spec

/-- What the loop does, on what lies at and after its index. -/
def compactRunes : List (Int × Int) → List (Int × Int)
  | a :: b :: l => if wrapRune (a.2 + 1) = b.1 then compactRunes ((a.1, b.2) :: l) else a :: compactRunes (b :: l)
  | l => l
termination_by l => l.length

theorem shapeupLoop_eq (pre post : List (Int × Int)) :
    shapeupLoop (pre ++ post) pre.length = pre ++ compactRunes post := by
  induction hn : post.length using Nat.strongRecOn generalizing pre post with
  | ind n ih =>
    subst hn
    rw [shapeupLoop]
    match post with
    | [] => rw [dif_neg (by simp)]; simp [compactRunes]
    | [a] => rw [dif_neg (by simp)]; simp [compactRunes]
    | a :: b :: l =>
      rw [dif_pos (by simp)]
      have e1 : (pre ++ a :: b :: l)[pre.length]'(by simp) = a := by simp
      have e2 : (pre ++ a :: b :: l)[pre.length + 1]'(by simp) = b := by
        rw [List.getElem_append_right (by simp)]; simp
      dsimp only
      rw [e1, e2, compactRunes]
      by_cases h : wrapRune (a.2 + 1) = b.1
      · rw [if_pos h, if_pos h]
        have e3 : (pre ++ a :: b :: l).take pre.length = pre := by simp
        have e4 : (pre ++ a :: b :: l).drop (pre.length + 2) = l := by
          rw [List.drop_append]; simp
        rw [e3, e4]
        exact ih _ (by simp) pre ((a.1, b.2) :: l) rfl
      · rw [if_neg h, if_neg h]
        have := ih _ (by simp) (pre ++ [a]) (b :: l) rfl
        simpa using this

theorem shapeup_runes (l : List (Int × Int)) : shapeup l = compactRunes l := by
  simpa [shapeup] using shapeupLoop_eq [] l

/-- The same for bounds that are not negative. -/
def compact : List (Nat × Nat) → List (Nat × Nat)
  | a :: b :: l => if a.2 + 1 = b.1 then compact ((a.1, b.2) :: l) else a :: compact (b :: l)
  | l => l
termination_by l => l.length

theorem wrapRune_succ {a b : Nat} (ha : a < 2 ^ 31) : wrapRune ((a : Int) + 1) = (b : Int) ↔ a + 1 = b ∧ b < 2 ^ 31 := by
  unfold wrapRune
  omega

theorem compactRunes_signed (l : List (Nat × Nat)) (h : ∀ p ∈ l, p.1 < 2 ^ 31 ∧ p.2 < 2 ^ 31) :
    compactRunes (signedRanges l) = signedRanges (compact l) := by
  induction hn : l.length using Nat.strongRecOn generalizing l with
  | ind n ih =>
    subst hn
    match l, h with
    | [], _ => simp [compact, compactRunes, signedRanges]
    | [a], _ => simp [compact, compactRunes, signedRanges]
    | a :: b :: l, h =>
      have ha := h a (by simp)
      have hb := h b (by simp)
      have e : signedRanges (a :: b :: l) = ((a.1 : Int), (a.2 : Int)) :: ((b.1 : Int), (b.2 : Int)) :: signedRanges l := rfl
      rw [e, compactRunes, compact]
      simp only [wrapRune_succ ha.2, hb.1, and_true]
      split
      · refine ih (l.length + 1) (by simp) ((a.1, b.2) :: l) ?_ rfl
        intro p hp
        rcases List.mem_cons.mp hp with rfl | hp
        · exact ⟨ha.1, hb.2⟩
        · exact h p (by simp [hp])
      · have := ih (l.length + 1) (by simp) (b :: l) (fun p hp => h p (List.mem_cons_of_mem _ hp)) rfl
        show _ :: compactRunes (signedRanges (b :: l)) = _
        rw [this]
        rfl

/-- Compaction of ranges of runes that are not negative. -/
theorem shapeup_eq (l : List (Nat × Nat)) (h : ∀ p ∈ l, p.1 < 2 ^ 31 ∧ p.2 < 2 ^ 31) :
    shapeup (signedRanges l) = signedRanges (compact l) := by
  rw [shapeup_runes, compactRunes_signed l h]

/-- The ranges, negative bounds taken for 0. -/
def natRanges (l : List (Int × Int)) : List (Nat × Nat) := l.map fun p => (p.1.toNat, p.2.toNat)

theorem natRanges_signed (l : List (Nat × Nat)) : natRanges (signedRanges l) = l := by
  simp [natRanges, signedRanges, Function.comp_def]

theorem signedRanges_injective {l m : List (Nat × Nat)} (h : signedRanges l = signedRanges m) : l = m := by
  rw [← natRanges_signed l, h, natRanges_signed]

theorem signedRanges_nat {l : List (Int × Int)} (h : ∀ p ∈ l, 0 ≤ p.1 ∧ 0 ≤ p.2) : signedRanges (natRanges l) = l := by
  induction l with
  | nil => rfl
  | cons p l ih =>
    have h1 := h p List.mem_cons_self
    show ((p.1.toNat : Int), (p.2.toNat : Int)) :: signedRanges (natRanges l) = p :: l
    rw [ih fun q hq => h q (List.mem_cons_of_mem _ hq), Int.toNat_of_nonneg h1.1, Int.toNat_of_nonneg h1.2]

theorem compact_within (l : List (Nat × Nat)) (hl : NonEmptyRanges l) (r : Nat) :
    Within (compact l) r ↔ Within l r := by
  induction hn : l.length using Nat.strongRecOn generalizing l with
  | ind n ih =>
    subst hn
    match l, hl with
    | [], _ => rw [compact]; simp
    | [a], _ => rw [compact]; simp
    | a :: b :: l, hl =>
      rw [compact]
      have ha := hl a (by simp)
      have hb := hl b (by simp)
      split
      · rename_i h
        rw [ih _ (by simp) ((a.1, b.2) :: l) (by
          intro p hp
          rcases List.mem_cons.mp hp with rfl | hp
          · dsimp only; omega
          · exact hl p (by simp [hp])) rfl]
        simp only [Within, List.mem_cons, exists_eq_or_imp]
        constructor
        · rintro (h1 | h1)
          · by_cases hr : r ≤ a.2
            · exact Or.inl ⟨h1.1, hr⟩
            · exact Or.inr (Or.inl ⟨by omega, h1.2⟩)
          · exact Or.inr (Or.inr h1)
        · rintro (h1 | h1 | h1)
          · exact Or.inl ⟨h1.1, by omega⟩
          · exact Or.inl ⟨by omega, h1.2⟩
          · exact Or.inr h1
      · have := ih _ (by simp) (b :: l) (fun p hp => hl p (List.mem_cons_of_mem _ hp)) rfl
        simp only [Within, List.mem_cons, exists_eq_or_imp] at this ⊢
        rw [this]

/-- The result starts where the list starts. -/
theorem compact_head (a : Nat × Nat) (l : List (Nat × Nat)) :
    ∃ h t, compact (a :: l) = (a.1, h) :: t := by
  induction hn : l.length using Nat.strongRecOn generalizing a l with
  | ind n ih =>
    subst hn
    match l with
    | [] => exact ⟨a.2, [], by rw [compact]; simp⟩
    | b :: l =>
      rw [compact]
      split
      · exact ih _ (by simp) (a.1, b.2) l rfl
      · exact ⟨a.2, _, rfl⟩

theorem compact_noneAdjacent (l : List (Nat × Nat)) : NoneAdjacent (compact l) := by
  induction hn : l.length using Nat.strongRecOn generalizing l with
  | ind n ih =>
    subst hn
    match l with
    | [] => rw [compact]; trivial; simp
    | [a] => rw [compact]; trivial; simp
    | a :: b :: l =>
      rw [compact]
      split
      · exact ih _ (by simp) _ rfl
      · rename_i h
        obtain ⟨x, t, e⟩ := compact_head b l
        have := ih _ (by simp) (b :: l) rfl
        rw [e] at this ⊢
        exact ⟨h, this⟩

theorem compact_sorted (l : List (Nat × Nat)) (hl : SortedRanges l) : SortedRanges (compact l) := by
  induction hn : l.length using Nat.strongRecOn generalizing l with
  | ind n ih =>
    subst hn
    match l, hl with
    | [], _ => rw [compact]; trivial; simp
    | [a], _ => rw [compact]; trivial; simp
    | a :: b :: l, hl =>
      rw [compact]
      split
      · refine ih _ (by simp) _ ?_ rfl
        match l, hl with
        | [], _ => trivial
        | c :: l, hl => exact ⟨hl.2.1, hl.2.2⟩
      · obtain ⟨x, t, e⟩ := compact_head b l
        have := ih _ (by simp) (b :: l) hl.2 rfl
        rw [e] at this ⊢
        exact ⟨hl.1, this⟩

theorem compact_nonEmpty (l : List (Nat × Nat)) (hl : NonEmptyRanges l) : NonEmptyRanges (compact l) := by
  induction hn : l.length using Nat.strongRecOn generalizing l with
  | ind n ih =>
    subst hn
    match l, hl with
    | [], hl => rw [compact]; exact hl; simp
    | [a], hl => rw [compact]; exact hl; simp
    | a :: b :: l, hl =>
      rw [compact]
      have ha := hl a (by simp)
      have hb := hl b (by simp)
      split
      · refine ih _ (by simp) _ ?_ rfl
        intro p hp
        rcases List.mem_cons.mp hp with rfl | hp
        · dsimp only; omega
        · exact hl p (by simp [hp])
      · intro p hp
        rcases List.mem_cons.mp hp with rfl | hp
        · exact ha
        · exact ih _ (by simp) (b :: l) (fun p hp => hl p (List.mem_cons_of_mem _ hp)) rfl p hp

theorem sorted_above {a : Nat × Nat} {l : List (Nat × Nat)} (hne : NonEmptyRanges (a :: l))
    (hs : SortedRanges (a :: l)) : ∀ p ∈ l, a.2 < p.1 := by
  induction l generalizing a with
  | nil => simp
  | cons b l ih =>
    intro p hp
    rcases List.mem_cons.mp hp with rfl | hp
    · exact hs.1
    · have h1 := ih (fun p hp => hne p (List.mem_cons_of_mem _ hp)) hs.2 p hp
      have h2 := hne b (by simp)
      have h3 : a.2 < b.1 := hs.1
      omega

theorem sorted_tail {a : Nat × Nat} {l : List (Nat × Nat)} (hs : SortedRanges (a :: l)) : SortedRanges l := by
  cases l with
  | nil => trivial
  | cons b l => exact hs.2

theorem adjacent_tail {a : Nat × Nat} {l : List (Nat × Nat)} (hs : NoneAdjacent (a :: l)) : NoneAdjacent l := by
  cases l with
  | nil => trivial
  | cons b l => exact hs.2

/-- The point right after the first range is in none of the others. -/
theorem gap {a : Nat × Nat} {l : List (Nat × Nat)} (hne : NonEmptyRanges (a :: l))
    (hs : SortedRanges (a :: l)) (hn : NoneAdjacent (a :: l)) : ¬ Within (a :: l) (a.2 + 1) := by
  rintro ⟨p, hp, h1, h2⟩
  rcases List.mem_cons.mp hp with rfl | hp
  · omega
  · cases l with
    | nil => simp at hp
    | cons b l =>
      have h3 : a.2 < b.1 := hs.1
      have h4 : a.2 + 1 ≠ b.1 := hn.1
      have hb := hne b (by simp)
      rcases List.mem_cons.mp hp with rfl | hp
      · omega
      · have := sorted_above (fun p hp => hne p (List.mem_cons_of_mem _ hp)) hs.2 p hp
        omega

theorem canonical (l m : List (Nat × Nat)) (hl1 : NonEmptyRanges l) (hl2 : SortedRanges l)
    (hl3 : NoneAdjacent l) (hm1 : NonEmptyRanges m) (hm2 : SortedRanges m) (hm3 : NoneAdjacent m)
    (h : ∀ r, Within l r ↔ Within m r) : l = m := by
  induction l generalizing m with
  | nil =>
    cases m with
    | nil => rfl
    | cons b m =>
      have := (h b.1).mpr ⟨b, by simp, Nat.le_refl _, hm1 b (by simp)⟩
      obtain ⟨p, hp, _⟩ := this
      simp at hp
  | cons a l ih =>
    cases m with
    | nil =>
      have := (h a.1).mp ⟨a, by simp, Nat.le_refl _, hl1 a (by simp)⟩
      obtain ⟨p, hp, _⟩ := this
      simp at hp
    | cons b m =>
      have ha := hl1 a (by simp)
      have hb := hm1 b (by simp)
      have hal := sorted_above hl1 hl2
      have hbm := sorted_above hm1 hm2
      have e1 : a.1 = b.1 := by
        have x1 := (h a.1).mp ⟨a, by simp, Nat.le_refl _, ha⟩
        have x2 := (h b.1).mpr ⟨b, by simp, Nat.le_refl _, hb⟩
        obtain ⟨p, hp, p1, p2⟩ := x1
        obtain ⟨q, hq, q1, q2⟩ := x2
        have : b.1 ≤ p.1 := by
          rcases List.mem_cons.mp hp with rfl | hp
          · omega
          · have := hbm p hp; omega
        have : a.1 ≤ q.1 := by
          rcases List.mem_cons.mp hq with rfl | hq
          · omega
          · have := hal q hq; omega
        omega
      have side : ∀ (a b : Nat × Nat) (l m : List (Nat × Nat)), NonEmptyRanges (b :: m) →
          SortedRanges (b :: m) → NoneAdjacent (b :: m) → a.1 = b.1 → b.1 ≤ b.2 →
          (∀ r, Within (a :: l) r → Within (b :: m) r) → a.2 ≤ b.2 := by
        intro a b l m k1 k2 k3 e hb h
        refine Nat.le_of_not_lt fun hlt => gap k1 k2 k3 (h _ ⟨a, by simp, by omega, by omega⟩)
      have e2 : a.2 = b.2 := Nat.le_antisymm
        (side a b l m hm1 hm2 hm3 e1 hb fun r => (h r).mp)
        (side b a m l hl1 hl2 hl3 e1.symm ha fun r => (h r).mpr)
      have hab : a = b := Prod.ext e1 e2
      subst hab
      congr 1
      refine ih m (fun p hp => hl1 p (List.mem_cons_of_mem _ hp)) (sorted_tail hl2) (adjacent_tail hl3)
        (fun p hp => hm1 p (List.mem_cons_of_mem _ hp)) (sorted_tail hm2) (adjacent_tail hm3) ?_
      intro r
      constructor
      · rintro ⟨p, hp, p1, p2⟩
        have := hal p hp
        obtain ⟨q, hq, q1, q2⟩ := (h r).mp ⟨p, by simp [hp], p1, p2⟩
        rcases List.mem_cons.mp hq with rfl | hq
        · omega
        · exact ⟨q, hq, q1, q2⟩
      · rintro ⟨p, hp, p1, p2⟩
        have := hbm p hp
        obtain ⟨q, hq, q1, q2⟩ := (h r).mpr ⟨p, by simp [hp], p1, p2⟩
        rcases List.mem_cons.mp hq with rfl | hq
        · omega
        · exact ⟨q, hq, q1, q2⟩

end GoTable
