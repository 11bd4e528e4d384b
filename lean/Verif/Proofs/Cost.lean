import Verif.Spec.Cost
import Verif.Proofs.TalkExact
import Verif.Props.Merge
/-!
# Counting the calls of a merge
-/

namespace GoTable
open Spec

variable {σ ι ν ε : Type}

theorem eventLengths_append (a b : List Event) : lengths (a ++ b) = lengths a ++ lengths b := by
  induction a with
  | nil => rfl
  | cons x a ih => cases x <;> simp [lengths, ih]

theorem sum_one_at (g j0 : Nat) (h : j0 < g) : ((List.range g).map fun j => if j = j0 then 1 else 0).sum = 1 := by
  induction g with
  | zero => omega
  | succ g ih =>
    rw [List.range_succ, List.map_append, List.sum_append_nat]
    simp only [List.map_cons, List.map_nil, List.sum_cons, List.sum_nil]
    by_cases hg : j0 = g
    · subst hg
      have : ((List.range j0).map fun j => if j = j0 then 1 else 0) = (List.range j0).map fun _ => 0 := by
        apply List.map_congr_left
        intro j hj
        rw [if_neg (by have := List.mem_range.mp hj; omega)]
      rw [this]
      simp
    · rw [ih (by omega), if_neg (by omega)]; rfl

theorem linesFor_mul (n g : Nat) (hg : 0 < g) : n ≤ linesFor n g * g := by
  unfold linesFor
  have h1 := Nat.div_add_mod (n + g - 1) g
  have h2 := Nat.mod_lt (n + g - 1) hg
  rw [Nat.mul_comm]; omega

theorem count_downH (n g j i : Nat) (hi : i < n) (hj : j < g) :
    (downH n g j).count i = if j = i % g then 1 else 0 := by
  have hnd : (downH n g j).Nodup := by
    refine List.Nodup.filter _ (List.Nodup.map_on ?_ List.nodup_range)
    intro a _ b _ h
    exact Nat.eq_of_mul_eq_mul_right (by omega : 0 < g) (by omega)
  rw [List.Nodup.count hnd]
  congr 1
  simp only [downH, List.mem_filter, List.mem_map, List.mem_range, decide_eq_true_eq, eq_iff_iff]
  constructor
  · rintro ⟨⟨a, _, rfl⟩, _⟩
    rw [Nat.add_comm, Nat.add_mul_mod_self_right, Nat.mod_eq_of_lt hj]
  · intro h
    refine ⟨⟨i / g, ?_, ?_⟩, hi⟩
    · rw [Nat.div_lt_iff_lt_mul (by omega)]
      exact Nat.lt_of_lt_of_le hi (linesFor_mul n g (by omega))
    · rw [h, Nat.mul_comm]; exact Nat.div_add_mod i g

theorem count_downV (n g j i : Nat) (hi : i < n) (hj : j < g) :
    (downV n g j).count i = if j = i / linesFor n g then 1 else 0 := by
  have hL := linesFor_pos n g (by omega) (by omega)
  have hnd : (downV n g j).Nodup := by
    refine List.Nodup.filter _ (List.Nodup.map_on ?_ List.nodup_range)
    intro a _ b _ h
    omega
  rw [List.Nodup.count hnd]
  congr 1
  simp only [downV, List.mem_filter, List.mem_map, List.mem_range, decide_eq_true_eq, eq_iff_iff]
  generalize linesFor n g = L at hL ⊢
  constructor
  · rintro ⟨⟨a, ha, rfl⟩, _⟩
    rw [Nat.add_comm, Nat.add_mul_div_right _ _ hL, Nat.div_eq_of_lt ha, Nat.zero_add]
  · rintro rfl
    exact ⟨⟨i % L, Nat.mod_lt _ hL, by rw [Nat.mul_comm]; exact Nat.div_add_mod i L⟩, hi⟩

theorem asked_map_gets (l : List Nat) (r : Nat → List GoString) :
    asked (l.map fun k : Nat => Event.get k (r k)) = l.map fun k : Nat => (k : Int) := by
  induction l with
  | nil => rfl
  | cons k l ih => simp [asked, ih]

theorem asked_flatMap {γ : Type} (l : List γ) (F : γ → List Event) : asked (l.flatMap F) = l.flatMap fun x => asked (F x) := by
  induction l with
  | nil => rfl
  | cons x l ih => simp [asked_append, ih]

theorem lengths_flatMap {γ : Type} (l : List γ) (F : γ → List Event) :
    lengths (l.flatMap F) = l.flatMap fun x => lengths (F x) := by
  induction l with
  | nil => rfl
  | cons x l ih => simp [eventLengths_append, ih]

theorem written_flatMap {γ : Type} (l : List γ) (F : γ → List Event) :
    written (l.flatMap F) = l.flatMap fun x => written (F x) := by
  induction l with
  | nil => rfl
  | cons x l ih => simp [written_append, ih]

theorem lengths_gets (l : List Nat) (r : Nat → List GoString) : lengths (l.map fun k : Nat => Event.get k (r k)) = [] := by
  induction l with
  | nil => rfl
  | cons k l ih => simp [lengths, ih]

theorem written_gets (l : List Nat) (r : Nat → List GoString) : written (l.map fun k : Nat => Event.get k (r k)) = [] := by
  induction l with
  | nil => rfl
  | cons k l ih => simp [written, ih]

theorem count_cast (l : List Nat) (i : Nat) : (l.map fun k : Nat => (k : Int)).count (i : Int) = l.count i :=
  List.count_map_of_injective l (fun k : Nat => (k : Int)) (fun a b h => by simpa using h) i

theorem count_repeated (m : Nat) (l : List Int) (x : Int) :
    ((List.range m).flatMap fun _ => l).count x = m * l.count x := by
  induction m with
  | zero => simp
  | succ m ih => rw [List.range_succ, List.flatMap_append, List.count_append, ih, Nat.succ_mul]; simp

/-- The calls of one round of the search: each item once for each column. -/
theorem round_cost (cols g n : Nat) (down : Nat → List Nat) (ans : Nat → Nat → Nat → List GoString)
    (at_ : Nat → Nat) (hat : ∀ i, i < n → at_ i < g)
    (hd : ∀ j i, i < n → j < g → (down j).count i = if j = at_ i then 1 else 0) :
    (∀ i, i < n → (asked ((measuring cols g n down ans).map Prod.fst)).count (i : Int) = cols) ∧
    lengths ((measuring cols g n down ans).map Prod.fst) = [(n : Int)] ∧
    written ((measuring cols g n down ans).map Prod.fst) = [] := by
  rw [map_fst_measuring]
  refine ⟨fun i hi => ?_, ?_, ?_⟩
  · simp only [asked, asked_flatMap, asked_map_gets, List.count_flatMap]
    have h1 : ((List.range g).map (List.count (i : Int) ∘ fun j =>
        (List.range cols).flatMap fun _ => (down j).map fun k : Nat => (k : Int))) =
        (List.range g).map fun j => cols * (if j = at_ i then 1 else 0) := by
      apply List.map_congr_left
      intro j hj
      rw [Function.comp, count_repeated, count_cast, hd j i hi (List.mem_range.mp hj)]
    rw [h1]
    have h2 : ∀ (l : List Nat) (F : Nat → Nat), (l.map fun j => cols * F j).sum = cols * (l.map F).sum := by
      intro l F
      induction l with
      | nil => rfl
      | cons x l ih => simp [ih, Nat.mul_add]
    rw [h2, sum_one_at g _ (hat i hi), Nat.mul_one]
  · simp [lengths, lengths_flatMap, lengths_gets]
  · simp [written, written_flatMap, written_gets]

/-- The calls that print: each item once. -/
theorem print_cost (f : Flags) (cols : List (Column σ ι ν ε)) (w : Nat → Nat → UInt16) (sep : GoString) (g n : Nat)
    (hn : 0 < n) (rows : Nat → List GoString) (onLine : Nat → List Nat)
    (hp : ((List.range (linesFor n g)).flatMap onLine).Perm (List.range n)) :
    (∀ i, i < n → (asked ((script f cols w sep g n rows onLine).map Prod.fst)).count (i : Int) = 1) ∧
    lengths ((script f cols w sep g n rows onLine).map Prod.fst) = [(n : Int)] ∧
    (written ((script f cols w sep g n rows onLine).map Prod.fst)).length = linesFor n g := by
  have hl : linesClaimed (n : Int) g = linesFor n g := by simp [linesClaimed, hn]
  have hm : (script f cols w sep g n rows onLine).map Prod.fst =
      Event.len n :: (List.range (linesFor n g)).flatMap fun i =>
        ((onLine i).map fun k : Nat => Event.get k (rows k)) ++
          [Event.write (lineText f cols w sep rows g (onLine i) ++ [0x0A]) false] := by
    simp [script, hl, List.map_flatMap, Function.comp_def]
  rw [hm]
  refine ⟨fun i hi => ?_, ?_, ?_⟩
  · have : asked (Event.len n :: (List.range (linesFor n g)).flatMap fun i =>
        ((onLine i).map fun k : Nat => Event.get k (rows k)) ++
          [Event.write (lineText f cols w sep rows g (onLine i) ++ [0x0A]) false]) =
        ((List.range (linesFor n g)).flatMap onLine).map fun k : Nat => (k : Int) := by
      simp [asked, asked_flatMap, asked_append, asked_map_gets, List.map_flatMap]
    rw [this, count_cast, hp.count_eq,
      List.Nodup.count List.nodup_range, if_pos (List.mem_range.mpr hi)]
  · simp [lengths, lengths_flatMap, eventLengths_append, lengths_gets]
  · simp [written, written_flatMap, written_append, written_gets]

/-- What a search that ends with a result costs. `r` rounds measure. -/
theorem searches_cost {vw : GoString → UInt16} {cols sepLen maxWidth n : Nat} {verdict : Int → Nat → Verdict}
    {down : Nat → Nat → Nat → List Nat} (at_ : Nat → Nat → Nat)
    (hat : ∀ g i, 0 < g → i < n → at_ g i < g)
    (hd : ∀ g j i, i < n → j < g → (down n g j).count i = if j = at_ g i then 1 else 0)
    {fuel g : Nat} {w : Nat → Nat → UInt16} {es : List Event} {e : Ending (Nat × (Nat → Nat → UInt16))}
    (h : Searches vw cols sepLen maxWidth verdict down fuel g w es e) (g' : Nat) (w' : Nat → Nat → UInt16)
    (he : e = .returned (g', w')) (hl : ∀ m, Event.len m ∈ es → m = (n : Int)) :
    g ≤ g' ∧ g' - g < fuel ∧ (∀ G, g < G → G ≤ g' → verdict n G = .measures ∧
      ∃ ans w1, Measured vw cols G (down n G) ans w1 ∧ fullWidth cols sepLen G w1 % 65536 ≤ maxWidth ∧
        ∀ j c k, j < G → c < cols → k ∈ down n G j → Event.get k (ans j c k) ∈ es) ∧
      ∃ r, (verdict n (g' + 1) = .measures ∧ r = g' - g + 1 ∨ verdict n (g' + 1) = .givesUp ∧ r = g' - g) ∧
      (∀ i, i < n → (asked es).count (i : Int) = r * cols) ∧ (lengths es).length = g' - g + 1 ∧ written es = [] := by
  induction h with
  | unfinished => cases he
  | givesUp fuel g w m hv =>
    cases he
    obtain rfl := hl m (by simp)
    refine ⟨Nat.le_refl _, by omega, fun G h1 h2 => by omega, 0, .inr ⟨hv, by omega⟩, fun i _ => ?_, by simp [lengths], rfl⟩
    simp [asked]
  | crashes => cases he
  | short => cases he
  | tooWide fuel g w m ans w1 hv hm hw =>
    cases he
    obtain rfl := hl m (by simp [measuring])
    obtain ⟨h1, h2, h3⟩ := round_cost cols (g' + 1) n (down n (g' + 1)) ans (at_ (g' + 1))
      (fun i hi => hat (g' + 1) i (by omega) hi) (hd (g' + 1))
    refine ⟨Nat.le_refl _, by omega, fun G h1 h2 => by omega, 1, .inl ⟨hv, by omega⟩, fun i hi => ?_, ?_, h3⟩
    · rw [Nat.one_mul]; exact h1 i hi
    · rw [show ((n : Int)).toNat = n from rfl, h2]; simp
  | fits fuel g w m ans w1 es e hv hm hw h ih =>
    obtain rfl := hl m (by simp [measuring])
    obtain ⟨h1, h2, h3⟩ := round_cost cols (g + 1) n (down n (g + 1)) ans (at_ (g + 1))
      (fun i hi => hat (g + 1) i (by omega) hi) (hd (g + 1))
    obtain ⟨a1, a2, a3, r, a4, a5, a6, a7⟩ := ih he (fun m hm => hl m (List.mem_append_right _ hm))
    refine ⟨by omega, by omega, fun G b1 b2 => ?_, r + 1, ?_, fun i hi => ?_, ?_, ?_⟩
    · by_cases hG : G = g + 1
      · subst hG
        refine ⟨hv, ans, w1, hm, hw, fun j c k hj hc hk => List.mem_append_left _ ?_⟩
        rw [map_fst_measuring]
        refine List.mem_cons_of_mem _ (List.mem_flatMap.mpr ⟨j, List.mem_range.mpr hj,
          List.mem_flatMap.mpr ⟨c, List.mem_range.mpr hc, List.mem_map.mpr ⟨k, hk, rfl⟩⟩⟩)
      · obtain ⟨c1, ans', w2, c2, c3, c4⟩ := a3 G (by omega) b2
        exact ⟨c1, ans', w2, c2, c3, fun j c k hj hc hk => List.mem_append_right _ (c4 j c k hj hc hk)⟩
    · rcases a4 with ⟨c1, rfl⟩ | ⟨c1, rfl⟩
      · exact .inl ⟨c1, by omega⟩
      · exact .inr ⟨c1, by omega⟩
    · rw [asked_append, List.count_append, a5 i hi, show ((n : Int)).toNat = n from rfl, h1 i hi, Nat.succ_mul]
      omega
    · rw [eventLengths_append, List.length_append, a6, show ((n : Int)).toNat = n from rfl, h2]
      simp; omega
    · rw [written_append, a7, show ((n : Int)).toNat = n from rfl, h3]; rfl

end GoTable
