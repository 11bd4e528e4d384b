import Verif.Proofs.MergeSearch
/-! Totals and the search for a group count. -/

namespace GoTable
open Spec

variable {σ ι ν ε : Type}

theorem foldl_add_eq (l : List UInt16) (a : UInt16) :
    l.foldl (· + ·) a = a + UInt16.ofNat (l.map UInt16.toNat).sum := by
  induction l generalizing a with
  | nil => simp
  | cons x l ih =>
    rw [List.foldl_cons, ih, List.map_cons, List.sum_cons, UInt16.ofNat_add, UInt16.ofNat_toNat, UInt16.add_assoc]

theorem ofNat_pred (g : Nat) (hg : 0 < g) : UInt16.ofNat g - 1 = UInt16.ofNat (g - 1) := by
  obtain ⟨k, rfl⟩ : ∃ k, g = k + 1 := ⟨g - 1, by omega⟩
  rw [UInt16.ofNat_add]
  simp

theorem sum_flatMap (F : Nat → Nat → UInt16) (n g : Nat) :
    (((List.range g).flatMap fun j => (List.range n).map (F j)).map UInt16.toNat).sum =
      ((List.range g).map fun j => ((List.range n).map fun c => (F j c).toNat).sum).sum := by
  generalize List.range g = l
  induction l with
  | nil => rfl
  | cons a l ih =>
    rw [List.flatMap_cons, List.map_append, List.sum_append, ih, List.map_cons, List.sum_cons, List.map_map]
    rfl

theorem sum_map_add_const (l : List Nat) (F : Nat → Nat) (k : Nat) :
    (l.map fun j => F j + k).sum = (l.map F).sum + l.length * k := by
  induction l with
  | nil => simp
  | cons a l ih => simp only [List.map_cons, List.sum_cons, ih, List.length_cons, Nat.add_mul]; omega

theorem compactTotal_eq (n sepLen g : Nat) (w : Nat → Nat → UInt16) (hn : 0 < n) (hg : 0 < g) :
    (compactTotal (u16 sepLen) (UInt16.ofNat n) g
      ((List.range g).flatMap fun j => (List.range n).map (w j))).toNat = fullWidth n sepLen g w % 65536 := by
  unfold compactTotal fullWidth
  rw [foldl_add_eq, sum_flatMap, ofNat_pred g hg, ofNat_pred n hn, u16_eq_ofNat, sum_map_add_const]
  have : innerMargin = 1 := rfl
  rw [this, UInt16.one_mul, ← UInt16.ofNat_mul, ← UInt16.ofNat_mul, ← UInt16.ofNat_add, ← UInt16.ofNat_add,
    UInt16.toNat_ofNat']
  rw [List.length_range, Nat.mul_comm sepLen, Nat.mul_comm (n - 1) g]
  congr 1
  omega

theorem maxWidthOf_toNat (arg : Int) : (maxWidthOf arg).toNat = clamped arg := by
  unfold maxWidthOf clamped maxWidthConst
  have h := u16_toNat (if arg > 65535 then 65535 else arg)
  have : (if arg > 65535 then 65535 else arg) = min arg 65535 := by
    by_cases h : arg > 65535
    · rw [if_pos h]; omega
    · rw [if_neg h]; omega
  rw [this] at h ⊢
  omega

theorem clamped_lt (arg : Int) : clamped arg < 65536 := by unfold clamped; omega

/-- The denominator of the group count. -/
theorem tableWidth_margin (t : Table σ ι ν ε) (sepLen : Nat) :
    t.tableWidth (u16 sepLen) + u16 sepLen = UInt16.ofNat (pitch t sepLen) := by
  have key : ∀ (cs : List (Column σ ι ν ε)) (a : UInt16),
      cs.foldl (fun width col => width + t.width col.name) a =
        a + UInt16.ofNat (cs.map fun c => (t.columnWidth c.name).toNat).sum := by
    intro cs
    induction cs with
    | nil => intro a; simp
    | cons c cs ih =>
      intro a
      rw [List.foldl_cons, ih, List.map_cons, List.sum_cons, UInt16.ofNat_add, UInt16.ofNat_toNat,
        ← UInt16.add_assoc]
      rfl
  unfold Table.tableWidth pitch
  rw [key, u16_eq_ofNat, UInt16.ofNat_add, UInt16.ofNat_mul]
  unfold Table.columnCount
  grind

theorem initialGroupCount_ok (t : Table σ ι ν ε) (arg : Int) (sepLen : Nat)
    (h : pitch t sepLen % 65536 ≠ 0) :
    initialGroupCount t (maxWidthOf arg) (u16 sepLen) =
      .ok (plainGroups (clamped arg) sepLen (pitch t sepLen)) := by
  unfold initialGroupCount
  simp only [tableWidth_margin]
  have hd : UInt16.ofNat (pitch t sepLen) ≠ 0 := by
    intro h0
    have := congrArg UInt16.toNat h0
    rw [UInt16.toNat_ofNat'] at this
    exact h (by simpa using this)
  rw [if_neg hd]
  have : ((maxWidthOf arg + u16 sepLen) / UInt16.ofNat (pitch t sepLen)).toNat =
      (clamped arg + sepLen) % 65536 / (pitch t sepLen % 65536) := by
    rw [UInt16.toNat_div, UInt16.toNat_add, maxWidthOf_toNat, u16_eq_ofNat, UInt16.toNat_ofNat', UInt16.toNat_ofNat']
    congr 1
    omega
  rw [this]
  unfold plainGroups
  congr 1
  split <;> omega

theorem initialGroupCount_zero (t : Table σ ι ν ε) (arg : Int) (sepLen : Nat)
    (h : pitch t sepLen % 65536 = 0) :
    initialGroupCount t (maxWidthOf arg) (u16 sepLen) = .error .divideByZero := by
  unfold initialGroupCount
  simp only [tableWidth_margin]
  rw [if_pos]
  rw [← UInt16.toNat_inj, UInt16.toNat_ofNat']
  simpa using h

theorem plainGroups_pos (a b c : Nat) : 0 < plainGroups a b c := by unfold plainGroups; omega

theorem columns_of_pitch {t : Table σ ι ν ε} {sepLen : Nat} (h : pitch t sepLen % 65536 ≠ 0) :
    0 < t.columns.length := by
  rcases hc : t.columns with _ | ⟨c, cs⟩
  · simp [pitch, hc] at h
  · simp

/-! ## The search, row by row -/

/-- The group count fits, in the code's arithmetic. -/
def fitsH (f : Flags) (t : Table σ ι ν ε) (items : Items) (maxWidth sepLen g : Nat) : Prop :=
  fullWidth t.columns.length sepLen g (wH f items g) % 65536 ≤ maxWidth

/-- The width table at `g` groups. -/
def tableH (f : Flags) (t : Table σ ι ν ε) (items : Items) (g : Nat) : List UInt16 :=
  (List.range g).flatMap fun j => (List.range t.columns.length).map (wH f items g j)

theorem compactLoopH_step (f : Flags) (t : Table σ ι ν ε) (items : Items) (arg : Int) (sepLen g0 fuel e : Nat)
    (cw : List UInt16) (hrows : FullRows t items) (hc : 0 < t.columns.length) :
    (fitsH f t items (clamped arg) sepLen (g0 + e + 1) →
      compactLoopH f t items (maxWidthOf arg) (u16 sepLen) g0 (fuel + 1) e cw =
        compactLoopH f t items (maxWidthOf arg) (u16 sepLen) g0 fuel (e + 1) (tableH f t items (g0 + e + 1))) ∧
    (¬ fitsH f t items (clamped arg) sepLen (g0 + e + 1) →
      compactLoopH f t items (maxWidthOf arg) (u16 sepLen) g0 (fuel + 1) e cw = some (.ok (e, cw))) := by
  have ht := compactTotal_eq t.columns.length sepLen (g0 + e + 1) (wH f items (g0 + e + 1)) hc (by omega)
  have hm := maxWidthOf_toNat arg
  rw [compactLoopH]
  simp only [mergedRowsWidthH_ok f t items _ hrows]
  constructor
  · intro h
    rw [if_neg]
    · rfl
    · unfold fitsH at h
      show ¬ maxWidthOf arg < _
      rw [UInt16.lt_iff_toNat_lt]
      unfold Table.columnCount
      omega
  · intro h
    rw [if_pos]
    unfold fitsH at h
    show maxWidthOf arg < _
    rw [UInt16.lt_iff_toNat_lt]
    unfold Table.columnCount
    omega

/-- While everything fits the search goes on. -/
theorem compactLoopH_none (f : Flags) (t : Table σ ι ν ε) (items : Items) (arg : Int) (sepLen g0 fuel e : Nat)
    (cw : List UInt16) (hrows : FullRows t items) (hc : 0 < t.columns.length)
    (h : ∀ k, e ≤ k → k < e + fuel → fitsH f t items (clamped arg) sepLen (g0 + k + 1)) :
    compactLoopH f t items (maxWidthOf arg) (u16 sepLen) g0 fuel e cw = none := by
  induction fuel generalizing e cw with
  | zero => rfl
  | succ fuel ih =>
    rw [(compactLoopH_step f t items arg sepLen g0 fuel e cw hrows hc).1 (h e (Nat.le_refl _) (by omega))]
    exact ih (e + 1) _ (fun k h1 h2 => h k (by omega) (by omega))

/-- It stops at the first misfit. -/
theorem compactLoopH_stop (f : Flags) (t : Table σ ι ν ε) (items : Items) (arg : Int) (sepLen g0 fuel e e' : Nat)
    (cw : List UInt16) (hrows : FullRows t items) (hc : 0 < t.columns.length) (hle : e ≤ e') (hf : e' < e + fuel)
    (h : ∀ k, e ≤ k → k < e' → fitsH f t items (clamped arg) sepLen (g0 + k + 1))
    (hn : ¬ fitsH f t items (clamped arg) sepLen (g0 + e' + 1)) :
    compactLoopH f t items (maxWidthOf arg) (u16 sepLen) g0 fuel e cw =
      some (.ok (e', if e' = e then cw else tableH f t items (g0 + e'))) := by
  induction fuel generalizing e cw with
  | zero => omega
  | succ fuel ih =>
    by_cases he : e = e'
    · subst he
      rw [(compactLoopH_step f t items arg sepLen g0 fuel e cw hrows hc).2 hn]
      simp
    · rw [(compactLoopH_step f t items arg sepLen g0 fuel e cw hrows hc).1 (h e (Nat.le_refl _) (by omega))]
      rw [ih (e + 1) _ (by omega) (by omega) (fun k h1 h2 => h k (by omega) h2)]
      rw [if_neg (by omega : ¬ e' = e)]
      by_cases h1 : e' = e + 1
      · subst h1; simp; rfl
      · rw [if_neg h1]

/-- Least element. -/
theorem exists_least {P : Nat → Prop} (n : Nat) (h : P n) : ∃ m, m ≤ n ∧ P m ∧ ∀ k < m, ¬ P k := by
  induction n using Nat.strongRecOn with
  | _ n ih =>
    by_cases hx : ∃ k, k < n ∧ P k
    · obtain ⟨k, hk, hp⟩ := hx
      obtain ⟨m, h1, h2, h3⟩ := ih k hk hp
      exact ⟨m, by omega, h2, h3⟩
    · exact ⟨n, Nat.le_refl _, h, fun k hk hp => hx ⟨k, hk, hp⟩⟩

/-- The outcome of the search. -/
theorem compactCalcH_cases (f : Flags) (t : Table σ ι ν ε) (items : Items) (arg : Int) (sepLen g0 fuel : Nat)
    (hrows : FullRows t items) (hc : 0 < t.columns.length) :
    ((∀ k < fuel, fitsH f t items (clamped arg) sepLen (g0 + k + 1)) ∧
      compactCalcH f t items (maxWidthOf arg) (u16 sepLen) g0 fuel = none) ∨
    ∃ e, e < fuel ∧ (∀ k < e, fitsH f t items (clamped arg) sepLen (g0 + k + 1)) ∧
      ¬ fitsH f t items (clamped arg) sepLen (g0 + e + 1) ∧
      compactCalcH f t items (maxWidthOf arg) (u16 sepLen) g0 fuel =
        some (.ok (e, if e = 0 then [] else tableH f t items (g0 + e))) := by
  unfold compactCalcH
  by_cases h : ∃ k, k < fuel ∧ ¬ fitsH f t items (clamped arg) sepLen (g0 + k + 1)
  · obtain ⟨k, hk, hm⟩ := h
    obtain ⟨e, h1, h2, h3⟩ := exists_least (P := fun k => ¬ fitsH f t items (clamped arg) sepLen (g0 + k + 1)) k hm
    refine Or.inr ⟨e, by omega, fun k hk => Classical.not_not.mp (h3 k hk), h2, ?_⟩
    exact compactLoopH_stop f t items arg sepLen g0 fuel 0 e [] hrows hc (Nat.zero_le _) (by omega)
      (fun k _ hk => Classical.not_not.mp (h3 k hk)) h2
  · have h' : ∀ k < fuel, fitsH f t items (clamped arg) sepLen (g0 + k + 1) := fun k hk =>
      Classical.byContradiction fun hn => h ⟨k, hk, hn⟩
    exact Or.inl ⟨h', compactLoopH_none f t items arg sepLen g0 fuel 0 [] hrows hc (fun k _ hk => h' k (by omega))⟩

theorem compactCalcH_short (f : Flags) (t : Table σ ι ν ε) (items : Items) (mw margin : UInt16) (g0 fuel : Nat)
    (hrows : ¬ FullRows t items) :
    compactCalcH f t items mw margin g0 (fuel + 1) = some (.error .index) := by
  unfold compactCalcH
  rw [compactLoopH, mergedRowsWidthH_short f t items _ (by omega) hrows]

/-! ## The search, column by column -/

/-- The group count fits, in the code's arithmetic. -/
def fitsV (f : Flags) (t : Table σ ι ν ε) (items : Items) (maxWidth sepLen g : Nat) : Prop :=
  ¬ lastEmpty items.len g ∧ fullWidth t.columns.length sepLen g (wV f items g) % 65536 ≤ maxWidth

/-- The width table at `g` groups. -/
def tableV (f : Flags) (t : Table σ ι ν ε) (items : Items) (g : Nat) : List UInt16 :=
  (List.range g).flatMap fun j => (List.range t.columns.length).map (wV f items g j)

theorem compactLoopV_step (f : Flags) (t : Table σ ι ν ε) (items : Items) (arg : Int) (sepLen g0 e : Nat)
    (hg : 1 ≤ g0) (cw : List UInt16) (hrows : FullRows t items) (hc : 0 < t.columns.length) :
    (fitsV f t items (clamped arg) sepLen (g0 + e + 1) →
      compactLoopV f t items (maxWidthOf arg) (u16 sepLen) g0 hg e cw =
        compactLoopV f t items (maxWidthOf arg) (u16 sepLen) g0 hg (e + 1) (tableV f t items (g0 + e + 1))) ∧
    (¬ fitsV f t items (clamped arg) sepLen (g0 + e + 1) →
      compactLoopV f t items (maxWidthOf arg) (u16 sepLen) g0 hg e cw = .ok (e, cw)) := by
  have ht := compactTotal_eq t.columns.length sepLen (g0 + e + 1) (wV f items (g0 + e + 1)) hc (by omega)
  have hm := maxWidthOf_toNat arg
  rw [compactLoopV]
  by_cases hl : lastEmpty items.len (g0 + e + 1)
  · have hmv := mergedRowsWidthV_nil f t items _ (by omega : 2 ≤ g0 + e + 1) hl
    refine ⟨fun h => absurd hl h.1, fun _ => ?_⟩
    split <;> simp_all
  · have hmv := mergedRowsWidthV_ok f t items _ (by omega : 2 ≤ g0 + e + 1) hl hrows
    constructor
    · intro h
      split
      · simp_all
      · simp_all
      · rename_i x heq
        rw [hmv] at heq
        simp only [Except.ok.injEq, Option.some.injEq] at heq
        subst heq
        rw [if_neg]
        · rfl
        · have := h.2
          show ¬ maxWidthOf arg < _
          rw [UInt16.lt_iff_toNat_lt]
          unfold Table.columnCount
          omega
    · intro h
      have h' : ¬ fullWidth t.columns.length sepLen (g0 + e + 1) (wV f items (g0 + e + 1)) % 65536 ≤ clamped arg :=
        fun hx => h ⟨hl, hx⟩
      split
      · simp_all
      · simp_all
      · rename_i x heq
        rw [hmv] at heq
        simp only [Except.ok.injEq, Option.some.injEq] at heq
        subst heq
        rw [if_pos]
        show maxWidthOf arg < _
        rw [UInt16.lt_iff_toNat_lt]
        unfold Table.columnCount
        omega

theorem compactLoopV_stop (f : Flags) (t : Table σ ι ν ε) (items : Items) (arg : Int) (sepLen g0 d e e' : Nat)
    (hg : 1 ≤ g0) (cw : List UInt16) (hrows : FullRows t items) (hc : 0 < t.columns.length) (hd : e' = e + d)
    (h : ∀ k, e ≤ k → k < e' → fitsV f t items (clamped arg) sepLen (g0 + k + 1))
    (hn : ¬ fitsV f t items (clamped arg) sepLen (g0 + e' + 1)) :
    compactLoopV f t items (maxWidthOf arg) (u16 sepLen) g0 hg e cw =
      .ok (e', if e' = e then cw else tableV f t items (g0 + e')) := by
  induction d generalizing e cw with
  | zero =>
    have : e' = e := by omega
    subst this
    rw [(compactLoopV_step f t items arg sepLen g0 e' hg cw hrows hc).2 hn]
    simp
  | succ d ih =>
    rw [(compactLoopV_step f t items arg sepLen g0 e hg cw hrows hc).1 (h e (Nat.le_refl _) (by omega))]
    rw [ih (e + 1) _ (by omega) (fun k h1 h2 => h k (by omega) h2)]
    rw [if_neg (by omega : ¬ e' = e)]
    by_cases h1 : e' = e + 1
    · subst h1; simp; rfl
    · rw [if_neg h1]

/-- More groups than items leave the last one empty. -/
theorem lastEmpty_of_lt (n g : Nat) (h : n < g) : lastEmpty n g := by
  unfold lastEmpty
  rcases Nat.eq_zero_or_pos n with h0 | h0
  · omega
  · have := linesFor_pos n g h0 (by omega)
    have : (g - 1) * 1 ≤ (g - 1) * linesFor n g := Nat.mul_le_mul_left _ this
    omega

/-- The outcome of the search. -/
theorem compactCalcV_cases (f : Flags) (t : Table σ ι ν ε) (items : Items) (arg : Int) (sepLen g0 : Nat)
    (hg : 1 ≤ g0) (hrows : FullRows t items) (hc : 0 < t.columns.length) :
    ∃ e, (∀ k < e, fitsV f t items (clamped arg) sepLen (g0 + k + 1)) ∧
      ¬ fitsV f t items (clamped arg) sepLen (g0 + e + 1) ∧
      compactCalcV f t items (maxWidthOf arg) (u16 sepLen) g0 hg =
        .ok (e, if e = 0 then [] else tableV f t items (g0 + e)) := by
  obtain ⟨e, h1, h2, h3⟩ := exists_least (P := fun k => ¬ fitsV f t items (clamped arg) sepLen (g0 + k + 1))
    items.len (fun h => h.1 (lastEmpty_of_lt _ _ (by omega)))
  refine ⟨e, fun k hk => Classical.not_not.mp (h3 k hk), h2, ?_⟩
  exact compactLoopV_stop f t items arg sepLen g0 e 0 e hg [] hrows hc (by omega)
    (fun k _ hk => Classical.not_not.mp (h3 k hk)) h2

theorem compactCalcV_short (f : Flags) (t : Table σ ι ν ε) (items : Items) (mw margin : UInt16) (g0 : Nat)
    (hg : 1 ≤ g0) (hrows : ¬ FullRows t items) :
    compactCalcV f t items mw margin g0 hg = .error .index ∨
    compactCalcV f t items mw margin g0 hg = .ok (0, []) := by
  unfold compactCalcV
  rw [compactLoopV]
  by_cases hl : lastEmpty items.len (g0 + 0 + 1)
  · have hmv := mergedRowsWidthV_nil f t items _ (by omega : 2 ≤ g0 + 0 + 1) hl
    right
    split <;> simp_all
  · have hmv := mergedRowsWidthV_short f t items _ (by omega : 2 ≤ g0 + 0 + 1) hl hrows
    left
    split <;> simp_all

end GoTable
