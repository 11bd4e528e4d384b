import Verif.Model.Word
import Verif.Proofs.Talk
/-! The merges with integers of the machine make the same calls as those with unbounded integers. -/

namespace GoTable
open Spec

variable {σ ι ν ε : Type} {α β γ δ : Type} {w : Nat}

/-! ## Two computations that make the same calls -/

/-- As long as every length told satisfies `ok`, both make the same calls, end alike, and their results are related. -/
inductive Agree (ok : Int → Prop) (R : α → β → Prop) : Talk α → Talk β → Prop
  | ret {a : α} {b : β} (h : R a b) : Agree ok R (.ret a) (.ret b)
  | panic (p : Panic) : Agree ok R (.panic p) (.panic p)
  | unfinished : Agree ok R .unfinished .unfinished
  | len {k : Int → Talk α} {k' : Int → Talk β} (h : ∀ n, ok n → Agree ok R (k n) (k' n)) : Agree ok R (.len k) (.len k')
  | get (i : Int) {k : List GoString → Talk α} {k' : List GoString → Talk β} (h : ∀ r, Agree ok R (k r) (k' r)) :
    Agree ok R (.get i k) (.get i k')
  | write (s : GoString) {k : Bool → Talk α} {k' : Bool → Talk β} (h : ∀ b, Agree ok R (k b) (k' b)) :
    Agree ok R (.write s k) (.write s k')

theorem Agree.bind {ok : Int → Prop} {R : α → β → Prop} {S : γ → δ → Prop} {p : Talk α} {q : Talk β}
    {f : α → Talk γ} {g : β → Talk δ} (h : Agree ok R p q) (hf : ∀ a b, R a b → Agree ok S (f a) (g b)) :
    Agree ok S (p >>= f) (q >>= g) := by
  simp only [talk_bind_eq]
  induction h with
  | ret h => exact hf _ _ h
  | panic p => exact .panic p
  | unfinished => exact .unfinished
  | len _ ih => exact .len fun n hn => ih n hn
  | get i _ ih => exact .get i fun r => ih r
  | write s _ ih => exact .write s fun b => ih b

theorem Agree.rfl {ok : Int → Prop} (p : Talk α) : Agree ok Eq p p := by
  induction p with
  | ret a => exact .ret _root_.rfl
  | panic p => exact .panic p
  | unfinished => exact .unfinished
  | len k ih => exact .len fun n _ => ih n
  | get i k ih => exact .get i ih
  | write s k ih => exact .write s ih

theorem Agree.mapM {ok : Int → Prop} {f g : Nat → Talk β} (l : List Nat) (h : ∀ x ∈ l, Agree ok Eq (f x) (g x)) :
    Agree ok Eq (l.mapM f) (l.mapM g) := by
  induction l with
  | nil => exact .ret _root_.rfl
  | cons x l ih =>
    rw [List.mapM_cons, List.mapM_cons]
    refine (h x (by simp)).bind fun a b hab => ?_
    subst hab
    refine (ih fun y hy => h y (by simp [hy])).bind fun as bs habs => ?_
    subst habs
    exact .ret _root_.rfl

theorem Agree.talks {ok : Int → Prop} {p q : Talk α} (h : Agree ok Eq p q) {es : List Event}
    (hok : ∀ n, Event.len n ∈ es → ok n) (e : Ending α) : Talks p es e ↔ Talks q es e := by
  induction h generalizing es with
  | ret h => subst h; exact Iff.rfl
  | panic p => exact Iff.rfl
  | unfinished => exact Iff.rfl
  | len _ ih =>
    constructor
    · intro h; cases h with
      | len n h => exact .len n ((ih n (hok n (by simp)) fun m hm => hok m (by simp [hm])).1 h)
    · intro h; cases h with
      | len n h => exact .len n ((ih n (hok n (by simp)) fun m hm => hok m (by simp [hm])).2 h)
  | get i _ ih =>
    constructor
    · intro h; cases h with
      | get _ r h => exact .get i r ((ih r fun m hm => hok m (by simp [hm])).1 h)
    · intro h; cases h with
      | get _ r h => exact .get i r ((ih r fun m hm => hok m (by simp [hm])).2 h)
  | write s _ ih =>
    constructor
    · intro h; cases h with
      | write _ b h => exact .write s b ((ih b fun m hm => hok m (by simp [hm])).1 h)
    · intro h; cases h with
      | write _ b h => exact .write s b ((ih b fun m hm => hok m (by simp [hm])).2 h)

/-! ## Arithmetic without overflow -/

/-- The integers of Go have 32 bits at least. -/
class Wide (w : Nat) : Prop where
  le : 32 ≤ w

/-- A quarter of the numbers of `w` bits. -/
def quarter (w : Nat) : Nat := 2 ^ (w - 2)

theorem quarter_le [h : Wide w] : 2 ^ 30 ≤ quarter w :=
  Nat.pow_le_pow_right (by omega) (by have := h.le; omega)
theorem four_quarter [h : Wide w] : 2 ^ w = 4 * quarter w := by
  have := h.le
  rw [quarter, show (4 : Nat) = 2 ^ 2 from rfl, ← Nat.pow_add]
  congr 1; omega
theorem two_quarter [h : Wide w] : 2 ^ (w - 1) = 2 * quarter w := by
  have := h.le
  rw [quarter, ← Nat.pow_succ']
  congr 1; omega

theorem bmod_id [Wide w] {n : Int} (h1 : -(2 * quarter w) ≤ n) (h2 : n < 2 * quarter w) : n.bmod (2 ^ w) = n := by
  rw [four_quarter]
  exact Int.bmod_eq_of_le (by omega) (by omega)

theorem goInt_lt {a b : GoInt w} : a < b ↔ a.toInt < b.toInt := Iff.rfl
theorem goInt_le {a b : GoInt w} : a ≤ b ↔ a.toInt ≤ b.toInt := Iff.rfl
theorem goInt_inj {a b : GoInt w} : a.toInt = b.toInt ↔ a = b :=
  BitVec.toInt_inj.trans GoInt.ext_iff.symm
theorem goInt_lt_max [Wide w] (a : GoInt w) : a.toInt < 2 * quarter w := by
  have := BitVec.toInt_lt (x := a.bits)
  have h : ((2 ^ (w - 1) : Nat) : Int) = 2 ^ (w - 1) := by simp
  rw [← h, two_quarter] at this
  simpa [GoInt.toInt] using this
theorem min_le_goInt [Wide w] (a : GoInt w) : -(2 * quarter w) ≤ a.toInt := by
  have := BitVec.le_toInt a.bits
  have h : ((2 ^ (w - 1) : Nat) : Int) = 2 ^ (w - 1) := by simp
  rw [← h, two_quarter] at this
  simpa [GoInt.toInt] using this

theorem w_add [Wide w] {a b : GoInt w} (h1 : -(2 * quarter w) ≤ a.toInt + b.toInt) (h2 : a.toInt + b.toInt < 2 * quarter w) :
    (a + b).toInt = a.toInt + b.toInt := (BitVec.toInt_add ..).trans (bmod_id h1 h2)
theorem w_sub [Wide w] {a b : GoInt w} (h1 : -(2 * quarter w) ≤ a.toInt - b.toInt) (h2 : a.toInt - b.toInt < 2 * quarter w) :
    (a - b).toInt = a.toInt - b.toInt := (BitVec.toInt_sub ..).trans (bmod_id h1 h2)
theorem w_mul [Wide w] {a b : GoInt w} (h1 : -(2 * quarter w) ≤ a.toInt * b.toInt) (h2 : a.toInt * b.toInt < 2 * quarter w) :
    (a * b).toInt = a.toInt * b.toInt := (BitVec.toInt_mul ..).trans (bmod_id h1 h2)
theorem w_div [Wide w] {a b : GoInt w} (h1 : -(2 * quarter w) ≤ a.toInt.tdiv b.toInt)
    (h2 : a.toInt.tdiv b.toInt < 2 * quarter w) :
    (a / b).toInt = a.toInt.tdiv b.toInt := (BitVec.toInt_sdiv ..).trans (bmod_id h1 h2)
theorem w_ofNat [Wide w] {n : Nat} (h : n < 2 * quarter w) : (GoInt.ofNat n : GoInt w).toInt = n :=
  (BitVec.toInt_ofNat' ..).trans (bmod_id (by omega) (by omega))
theorem w_ofInt [Wide w] {n : Int} (h1 : -(2 * quarter w) ≤ n) (h2 : n < 2 * quarter w) :
    (GoInt.ofInt n : GoInt w).toInt = n := (BitVec.toInt_ofInt ..).trans (bmod_id h1 h2)
theorem w_one [Wide w] : (1 : GoInt w).toInt = 1 := w_ofNat (n := 1) (by have := quarter_le (w := w); omega)
theorem w_zero [Wide w] : (0 : GoInt w).toInt = 0 := w_ofNat (n := 0) (by have := quarter_le (w := w); omega)

variable [Wide w]

theorem tdiv_le_abs (a b : Int) : -(a.natAbs : Int) ≤ a.tdiv b ∧ a.tdiv b ≤ (a.natAbs : Int) := by
  have := Int.natAbs_tdiv_le_natAbs a b
  omega

/-- A product between 0 and the bound of a quotient. -/
theorem tdiv_mul_bounds (a : Int) {g : Int} (hg : 0 < g) :
    -(a.natAbs : Int) ≤ g * a.tdiv g ∧ g * a.tdiv g ≤ (a.natAbs : Int) := by
  rcases Int.le_total 0 a with h | h
  · have h1 := Int.mul_tdiv_add_tmod a g
    have h2 := Int.tmod_nonneg g h
    have h3 : 0 ≤ a.tdiv g := Int.tdiv_nonneg h (by omega)
    have h4 : 0 ≤ g * a.tdiv g := Int.mul_nonneg (by omega) h3
    omega
  · have h1 := Int.mul_tdiv_add_tmod a g
    have h2 : a.tmod g ≤ 0 := by
      have := Int.tmod_nonneg g (a := -a) (by omega)
      rw [Int.neg_tmod] at this; omega
    have h3 : 0 ≤ (-a).tdiv g := Int.tdiv_nonneg (by omega) (by omega)
    rw [Int.neg_tdiv] at h3
    have h4 : 0 ≤ g * -(a.tdiv g) := Int.mul_nonneg (by omega) h3
    rw [Int.mul_neg] at h4
    omega

/-- The lengths considered. -/
def Moderate (w : Nat) (n : Int) : Prop := -(quarter w) ≤ n ∧ n ≤ quarter w

theorem Agree.askLen {ok : Int → Prop} (hok : ∀ n, ok n → Moderate w n) :
    Agree ok (fun (x : GoInt w) n => x.toInt = n ∧ ok n) askLenW askLen :=
  .len fun n hn => .ret ⟨w_ofInt (by have := hok n hn; have := quarter_le (w := w); unfold Moderate at *; omega)
    (by have := hok n hn; have := quarter_le (w := w); unfold Moderate at *; omega), hn⟩

theorem lineCount_agree {ok : Int → Prop} {x g : GoInt w} {n : Int} {m : Nat} (hx : x.toInt = n) (hn : Moderate w n)
    (hg : g.toInt = m) (hm : 0 < m) :
    Agree ok (fun y l => y.toInt = l ∧ l = lineCountT n m) (lineCountW x g) (.ret (lineCountT n m)) := by
  have hq4 := quarter_le (w := w)
  have hn1 := hn.1
  have hn2 := hn.2
  have hs : (x - 1).toInt = n - 1 := by rw [w_sub] <;> simp only [hx, w_one] <;> omega
  have hne : g ≠ 0 := by
    intro h; rw [h, w_zero] at hg; omega
  have hb := tdiv_le_abs (n - 1) m
  have hd : ((x - 1) / g).toInt = (n - 1).tdiv m := by
    rw [w_div, hs, hg] <;> rw [hs, hg] <;> omega
  simp only [lineCountW, quoW, if_neg hne]
  refine .ret ⟨?_, _root_.rfl⟩
  rw [w_add, hd, w_one]
  · rfl
  · rw [hd, w_one]; omega
  · rw [hd, w_one]; omega

/-! ## The loops -/

theorem maxCellWidthW_H {ok : Int → Prop} (f : Flags) (colI : Nat) {itemN gw : GoInt w} {n : Int} {g : Nat}
    (hN : itemN.toInt = n) (hn : n ≤ quarter w) (hg : gw.toInt = g) (hpos : 0 < g) (hlt : g < quarter w) (fuel : Nat) :
    ∀ (x : GoInt w) (i : Nat) (mw : UInt16), x.toInt = i → (n - i).toNat < fuel →
      Agree ok Eq (maxCellWidthW f colI itemN gw fuel x mw) (maxCellWidthHT f n colI g i mw) := by
  induction fuel with
  | zero => intro x i mw _ h; omega
  | succ fuel ih =>
    intro x i mw hx hf
    rw [maxCellWidthHT, maxCellWidthW]
    by_cases h : (i : Int) < n
    · rw [dif_pos ⟨h, hpos⟩, if_pos (goInt_lt.2 (by omega))]
      rw [show askGetW x = askGet i by rw [askGetW, askGet, hx]]
      refine (Agree.rfl _).bind fun a b hab => ?_
      subst hab
      refine (Agree.rfl _).bind fun a b hab => ?_
      subst hab
      refine ih _ _ _ ?_ ?_
      · rw [w_add] <;> simp only [hx, hg] <;> omega
      · omega
    · rw [dif_neg (by omega), if_neg (by rw [goInt_lt]; omega)]
      exact .ret rfl

theorem maxCellWidthW_V {ok : Int → Prop} (f : Flags) (colI : Nat) {stop : GoInt w} {n : Int}
    (hN : stop.toInt = n) (fuel : Nat) :
    ∀ (x : GoInt w) (i : Int) (mw : UInt16), x.toInt = i → (n - i).toNat < fuel →
      Agree ok Eq (maxCellWidthW f colI stop 1 fuel x mw) (maxCellWidthVT f colI n i mw) := by
  induction fuel with
  | zero => intro x i mw _ h; omega
  | succ fuel ih =>
    intro x i mw hx hf
    rw [maxCellWidthVT, maxCellWidthW]
    have hs := goInt_lt_max stop
    have hx' := min_le_goInt x
    by_cases h : i < n
    · rw [if_pos h, if_pos (goInt_lt.2 (by omega))]
      rw [show askGetW x = askGet i by rw [askGetW, askGet, hx]]
      refine (Agree.rfl _).bind fun a b hab => ?_
      subst hab
      refine (Agree.rfl _).bind fun a b hab => ?_
      subst hab
      refine ih _ _ _ ?_ ?_
      · rw [w_add] <;> simp only [hx, w_one] <;> omega
      · omega
    · rw [if_neg h, if_neg (by rw [goInt_lt]; omega)]
      exact .ret rfl

theorem measureGroupsW_agree {ok : Int → Prop} {body : GoInt w → Talk (List UInt16)} {body' : Nat → Talk (List UInt16)}
    {gw : GoInt w} {g : Nat} (hg : gw.toInt = g)
    (hb : ∀ (x : GoInt w) (j : Nat), x.toInt = j → j < g → Agree ok Eq (body x) (body' j)) (fuel : Nat) :
    ∀ (x : GoInt w) (j k : Nat), x.toInt = j → j + k = g → k < fuel →
      Agree ok (fun a b => a = List.flatten b) (measureGroupsW body gw fuel x) ((List.range' j k).mapM body') := by
  induction fuel with
  | zero => intro x j k _ _ h; omega
  | succ fuel ih =>
    intro x j k hx hj hf
    rw [measureGroupsW]
    have hs := goInt_lt_max gw
    cases k with
    | zero =>
      rw [if_neg (by rw [goInt_lt]; omega)]
      exact .ret rfl
    | succ k =>
      rw [if_pos (goInt_lt.2 (by omega)), List.range'_succ, List.mapM_cons]
      refine (hb x j hx (by omega)).bind fun a b hab => ?_
      subst hab
      refine (ih (x + 1) (j + 1) k ?_ (by omega) (by omega)).bind fun a b hab => ?_
      · rw [w_add] <;> simp only [hx, w_one] <;> omega
      · subst hab
        exact .ret rfl

theorem lineGroupsW_agree {ok : Int → Prop} (f : Flags) (t : Table σ ι ν ε) {itemN gw : GoInt w} {n : Int} {g : Nat}
    {gwW : Nat → GoInt w → Except Panic UInt16} {gwT : Nat → Nat → Except Panic UInt16} {ixW : GoInt w → GoInt w}
    {ixT : Nat → Nat} (hN : itemN.toInt = n) (hg : gw.toInt = g)
    (hw : ∀ (x : GoInt w) (j : Nat), x.toInt = j → j < g → ∀ c, c < t.columns.length → gwW c x = gwT c j)
    (hi : ∀ (x : GoInt w) (j : Nat), x.toInt = j → j < g → (ixW x).toInt = ixT j) (fuel : Nat) :
    ∀ (x : GoInt w) (j : Nat), x.toInt = j → g - j < fuel →
      Agree ok Eq (lineGroupsW f t itemN gwW ixW gw fuel x) (lineGroupsT f t n gwT ixT g j) := by
  induction fuel with
  | zero => intro x j _ h; omega
  | succ fuel ih =>
    intro x j hx hf
    rw [lineGroupsW, lineGroupsT]
    have hs := goInt_lt_max gw
    by_cases h : j < g
    · rw [if_pos h, if_pos (goInt_lt.2 (by omega))]
      have hix := hi x j hx h
      by_cases h2 : (ixT j : Int) ≥ n
      · simp only [if_pos h2, if_pos (show ixW x ≥ itemN from goInt_le.2 (by omega))]
        exact .ret rfl
      · simp only [if_neg h2, if_neg (show ¬ ixW x ≥ itemN from fun hc => by
          have := goInt_le.1 hc; omega)]
        rw [show askGetW (ixW x) = askGet (ixT j) by rw [askGetW, askGet, hix]]
        refine (Agree.rfl _).bind fun a b hab => ?_
        subst hab
        have hr : ∀ (cols : List (Column σ ι ν ε)) (c : Nat), c + cols.length ≤ t.columns.length →
            renderCells f (fun colI _ => gwW colI x) 0 a cols c = renderCells f gwT j a cols c := by
          intro cols
          induction cols with
          | nil => intro c _; rfl
          | cons col cols ihc =>
            intro c hc
            simp only [List.length_cons] at hc
            simp only [renderCells, hw x j hx h c (by omega), ihc (c + 1) (by omega)]
        rw [hr t.columns 0 (by omega)]
        refine (Agree.rfl _).bind fun a b hab => ?_
        subst hab
        refine (ih (x + 1) (j + 1) ?_ (by omega)).bind fun a b hab => ?_
        · rw [w_add] <;> simp only [hx, w_one] <;> omega
        · subst hab; exact .ret rfl
    · rw [if_neg h, if_neg (by rw [goInt_lt]; omega)]
      exact .ret rfl

theorem writeLinesW_agree {ok : Int → Prop} (sep : GoString) {lineW : GoInt w → Talk (List GoString)}
    {lineT : Nat → Talk (List GoString)} {lw : GoInt w} {l : Nat} (hl : lw.toInt.toNat = l)
    (h : ∀ (x : GoInt w) (i : Nat), x.toInt = i → i < l → Agree ok Eq (lineW x) (lineT i)) (fuel : Nat) :
    ∀ (x : GoInt w) (i : Nat), x.toInt = i → l - i < fuel →
      Agree ok Eq (writeLinesW sep lineW lw fuel x) (writeLinesT sep lineT l i) := by
  induction fuel with
  | zero => intro x i _ h; omega
  | succ fuel ih =>
    intro x i hx hf
    rw [writeLinesW, writeLinesT]
    have hs := goInt_lt_max lw
    by_cases hi : i < l
    · rw [if_pos hi, if_pos (goInt_lt.2 (by omega))]
      refine (h x i hx hi).bind fun a b hab => ?_
      subst hab
      refine (Agree.rfl _).bind fun a b hab => ?_
      subst hab
      cases a
      · refine ih _ _ ?_ (by omega)
        rw [w_add] <;> simp only [hx, w_one] <;> omega
      · exact .panic _
    · rw [if_neg hi, if_neg (by rw [goInt_lt]; omega)]
      exact .ret rfl

omit [Wide w] in
theorem compactTotalW_eq (margin colN : UInt16) {gw : GoInt w} {g : Nat} (hg : gw.toInt = g) (ws : List UInt16) :
    compactTotalW margin colN gw ws = compactTotal margin colN g ws := by
  have : u16 gw.toInt = UInt16.ofNat g := by
    rw [hg, u16, show ((g : Int) % 65536).toNat = g % 65536 by omega]
    apply UInt16.toNat_inj.1
    simp
  rw [compactTotalW, compactTotal, this]

theorem getWidthCompactW_eq (ws : List UInt16) (colN : Nat) {g : Nat} (hm : g * colN < 2 * quarter w) {x : GoInt w} {j c : Nat}
    (hx : x.toInt = j) (hj : j < g) (hc : c < colN) :
    getWidthCompactW ws colN c x = getWidthCompact ws colN c j := by
  have h1 : (j + 1) * colN ≤ g * colN := Nat.mul_le_mul_right _ hj
  rw [Nat.add_mul, Nat.one_mul] at h1
  have hcn : colN < 2 * quarter w := by
    have : 1 * colN ≤ g * colN := Nat.mul_le_mul_right _ (by omega)
    omega
  have hmul : (x * GoInt.ofNat colN).toInt = ((j * colN : Nat) : Int) := by
    rw [w_mul, hx, w_ofNat hcn, Int.natCast_mul]
    · rw [hx, w_ofNat hcn, ← Int.natCast_mul]; omega
    · rw [hx, w_ofNat hcn, ← Int.natCast_mul]; omega
  have hadd : (x * GoInt.ofNat colN + GoInt.ofNat c).toInt = ((j * colN + c : Nat) : Int) := by
    rw [w_add, hmul, w_ofNat (by omega)]
    · omega
    · rw [hmul, w_ofNat (by omega)]; omega
    · rw [hmul, w_ofNat (by omega)]; omega
  rw [getWidthCompactW, getWidthCompact]
  simp only [hadd]
  rw [if_neg (by rw [goInt_lt, hadd, w_zero]; omega), Int.toNat_natCast]

/-! ## Both merges -/

theorem rounds_eq : rounds w = 4 * quarter w := four_quarter

theorem mergedRowsWidthHW_agree (f : Flags) (t : Table σ ι ν ε) {gw : GoInt w} {g : Nat} (hg : gw.toInt = g)
    (hpos : 0 < g) (hlt : g < quarter w) :
    Agree (Moderate w) Eq (mergedRowsWidthHW f t gw) (mergedRowsWidthHT f t g) := by
  rw [mergedRowsWidthHW, mergedRowsWidthHT]
  refine (Agree.askLen fun n h => h).bind fun x n hx => ?_
  rw [← bind_pure (measureGroupsW _ gw (rounds w) 0), List.range_eq_range' (n := g)]
  refine Agree.bind (measureGroupsW_agree hg (fun y j hy hj => Agree.mapM _ fun c _ =>
    maxCellWidthW_H f c hx.1 hx.2.2 hg hpos hlt (rounds w) y j 0 hy ?_) (rounds w) 0 0 g w_zero (by omega) ?_) fun a b hab => ?_
  · have := hx.2.2; rw [rounds_eq]; omega
  · rw [rounds_eq]; omega
  · subst hab; exact .ret rfl

theorem compactLoopHW_agree (f : Flags) (t : Table σ ι ν ε) (maxWidth margin : UInt16) {initW : GoInt w} {init : Nat}
    (hi : initW.toInt = init) (hpos : 0 < init) (fuel : Nat) :
    ∀ (x : GoInt w) (extra : Nat) (ws : List UInt16), x.toInt = extra → init + extra + fuel < quarter w →
      Agree (Moderate w) (fun a b => a.1.toInt = b.1 ∧ a.2 = b.2 ∧ b.1 ≤ extra + fuel)
        (compactLoopHW f t maxWidth margin initW fuel x ws)
        (compactLoopHT f t maxWidth margin init fuel extra ws) := by
  induction fuel with
  | zero => intro x extra ws _ _; exact .unfinished
  | succ fuel ih =>
    intro x extra ws hx hb
    rw [compactLoopHW, compactLoopHT]
    have h1 : (initW + x).toInt = init + extra := by rw [w_add] <;> simp only [hi, hx] <;> omega
    have hg : (initW + x + 1).toInt = ((init + extra + 1 : Nat) : Int) := by
      rw [w_add] <;> simp only [h1, w_one] <;> omega
    refine (mergedRowsWidthHW_agree f t hg (by omega) (by omega)).bind fun a b hab => ?_
    subst hab
    rw [compactTotalW_eq _ _ hg]
    split
    · exact .ret ⟨hx, rfl, by simp⟩
    · have := ih (x + 1) (extra + 1) a (by rw [w_add] <;> simp only [hx, w_one] <;> omega) (by omega)
      simpa only [Nat.add_assoc, Nat.add_comm 1 fuel] using this

/-- Below the number of lines, times the number of groups, is below the number of items. -/
theorem line_mul_le {n : Int} {g i : Nat} (hg : 0 < g) (hi : i < (lineCountT n g).toNat) :
    (i : Int) * g ≤ max 0 (n - 1) := by
  rw [lineCountT] at hi
  have hq : (i : Int) ≤ (n - 1).tdiv g := by omega
  have := Int.mul_le_mul_of_nonneg_right hq (show (0 : Int) ≤ g by omega)
  have h1 := Int.mul_tdiv_add_tmod (n - 1) (g : Int)
  rcases Int.le_total 0 (n - 1) with h | h
  · have h2 := Int.tmod_nonneg (g : Int) h
    rw [Int.mul_comm] at h1
    omega
  · have hz : (n - 1).tdiv g ≤ 0 := by
      have := Int.tdiv_nonneg (a := -(n - 1)) (b := g) (by omega) (by omega)
      rw [Int.neg_tdiv] at this; omega
    have : i = 0 := by omega
    subst this; simp

theorem printHW_agree (f : Flags) (t : Table σ ι ν ε) (sep : GoString) {gw : GoInt w} {g : Nat} (hg : gw.toInt = g)
    (hpos : 0 < g) (hlt : g < quarter w) {gwW : Nat → GoInt w → Except Panic UInt16} {gwT : Nat → Nat → Except Panic UInt16}
    (hw : ∀ (x : GoInt w) (j : Nat), x.toInt = j → j < g → ∀ c, c < t.columns.length → gwW c x = gwT c j) :
    Agree (Moderate w) Eq (printHW f t sep gw gwW) (printHT f t sep g gwT) := by
  rw [printHW, printHT]
  refine (Agree.askLen fun n h => h).bind fun x n hx => ?_
  rw [← pure_bind (m := Talk) (lineCountT n g) fun l => writeLinesT sep
    (fun lineI => lineGroupsT f t n gwT (indexH g lineI) g 0) l.toNat 0]
  refine (lineCount_agree hx.1 hx.2 hg hpos).bind fun y l hl => ?_
  obtain ⟨hl, rfl⟩ := hl
  have hy := goInt_lt_max y
  refine writeLinesW_agree sep (by rw [hl]) (fun z i hz hi => lineGroupsW_agree f t hx.1 hg hw
    (fun v j hv hj => ?_) (rounds w) 0 0 w_zero (by rw [rounds_eq]; omega)) (rounds w) 0 0 w_zero (by rw [rounds_eq]; omega)
  have hb := line_mul_le hpos hi
  have hp : 0 ≤ (i : Int) * g := Int.mul_nonneg (by omega) (by omega)
  have hn := hx.2.2
  have hm : (z * gw).toInt = i * g := by rw [w_mul] <;> simp only [hz, hg] <;> omega
  rw [indexH, w_add, hm, hv]
  · simp
  · rw [hm, hv]; omega
  · rw [hm, hv]; omega

theorem mergeHW_agree (f : Flags) (t : Table σ ι ν ε) (arg : GoInt w) (sep : GoString) (compact : Bool) (fuel : Nat)
    (h1 : 2 * fuel < quarter w) (h2 : (65535 + fuel) * t.columnCount < 2 * quarter w) :
    Agree (Moderate w) Eq (mergeRowsHorizontalW f t arg sep compact fuel)
      (mergeRowsHorizontalT f t arg.toInt sep compact fuel) := by
  have hq4 := quarter_le (w := w)
  rw [mergeRowsHorizontalW, mergeRowsHorizontalT]
  cases hgc : initialGroupCount t (maxWidthOf arg.toInt) (u16 sep.length) with
  | error p => exact .panic p
  | ok g =>
    have hgb : 0 < g ∧ g ≤ 65535 := by
      rw [initialGroupCount] at hgc
      split at hgc
      · cases hgc
      · have hlt := UInt16.toNat_lt ((maxWidthOf arg.toInt + u16 sep.length) / (t.tableWidth (u16 sep.length) + u16 sep.length))
        injection hgc with hgc
        split at hgc <;> omega
    have hG : (GoInt.ofNat g : GoInt w).toInt = g := w_ofNat (by omega)
    have hplain := printHW_agree f t sep hG hgb.1 (by omega) (gwW := getWidthTableW t) (gwT := getWidthTable t)
      (fun _ _ _ _ _ _ => rfl)
    refine Agree.bind (R := fun a b => a = g ∧ b = g) (.ret ⟨rfl, rfl⟩) fun a b hab => ?_
    rw [hab.1, hab.2]
    clear hab a b
    cases compact
    · exact hplain
    · refine Agree.bind (compactLoopHW_agree f t _ _ hG hgb.1 fuel 0 0 [] w_zero (by omega)) fun a b hab => ?_
      obtain ⟨ha, hws, hb⟩ := hab
      by_cases hpos : b.1 > 0
      · rw [if_pos hpos, if_pos (show a.1 > 0 from goInt_lt.2 (by rw [w_zero]; omega))]
        refine printHW_agree f t sep (g := g + b.1) ?_ (by omega) (by omega) fun x j hx hj c hc => ?_
        · rw [w_add] <;> simp only [hG, ha] <;> omega
        · rw [hws]
          refine getWidthCompactW_eq _ _ (g := g + b.1) ?_ hx hj hc
          exact Nat.lt_of_le_of_lt (Nat.mul_le_mul_right _ (by omega)) h2
      · rw [if_neg hpos, if_neg (show ¬ a.1 > 0 from fun hc => by
          have := goInt_lt.1 hc; rw [w_zero] at this; omega)]
        exact hplain

omit [Wide w] in
/-- The products of the vertical layout do not overflow. -/
theorem group_mul_bounds {n : Int} {g j : Nat} (hn : Moderate w n) (hg : 0 < g) (hlt : g < quarter w - 1) (hj : j ≤ g) :
    -(2 * quarter w) ≤ (j : Int) * lineCountT n g ∧ (j : Int) * lineCountT n g < 2 * quarter w := by
  have hb := tdiv_mul_bounds (n - 1) (g := g) (by omega)
  have hn1 := hn.1
  have hn2 := hn.2
  have he : (g : Int) * lineCountT n g = g * (n - 1).tdiv g + g := by rw [lineCountT, Int.mul_add, Int.mul_one]
  rcases Int.le_total 0 (lineCountT n g) with h | h
  · have h3 : (j : Int) * lineCountT n g ≤ g * lineCountT n g := Int.mul_le_mul_of_nonneg_right (by omega) h
    have h4 : 0 ≤ (j : Int) * lineCountT n g := Int.mul_nonneg (by omega) h
    omega
  · have h3 : (j : Int) * -lineCountT n g ≤ g * -lineCountT n g := Int.mul_le_mul_of_nonneg_right (by omega) (by omega)
    have h4 : 0 ≤ (j : Int) * -lineCountT n g := Int.mul_nonneg (by omega) (by omega)
    rw [Int.mul_neg, Int.mul_neg] at h3
    rw [Int.mul_neg] at h4
    omega

theorem mergedRowsWidthVW_agree (f : Flags) (t : Table σ ι ν ε) {gw : GoInt w} {g : Nat} (hg : gw.toInt = g)
    (hpos : 0 < g) (hlt : g < quarter w - 1) :
    Agree (Moderate w) Eq (mergedRowsWidthVW f t gw) (mergedRowsWidthVT f t g) := by
  rw [mergedRowsWidthVW, mergedRowsWidthVT]
  refine (Agree.askLen fun n h => h).bind fun x n hx => ?_
  rw [← pure_bind (m := Talk) (lineCountT n g) fun lineCount =>
    (if lineCount = 0 then Talk.panic .divideByZero
      else if (g : Int) > (n - 1).tdiv lineCount + 1 then return none
      else do
        let rows ← (List.range g).mapM fun (groupI : Nat) =>
          (List.range t.columnCount).mapM fun colI =>
            maxCellWidthVT f colI (if ((groupI : Int) + 1) * lineCount > n then n
              else ((groupI : Int) + 1) * lineCount) (groupI * lineCount) 0
        return some rows.flatten)]
  refine (lineCount_agree hx.1 hx.2 hg hpos).bind fun y l hl => ?_
  obtain ⟨hl, rfl⟩ := hl
  have hn := hx.2
  have hn1 := hn.1
  have hn2 := hn.2
  by_cases h0 : lineCountT n g = 0
  · rw [if_pos h0, quoW, if_pos (goInt_inj.1 (by rw [hl, h0, w_zero]))]
    exact .panic _
  · rw [if_neg h0, quoW, if_neg (fun h => h0 (by rw [← hl, h, w_zero]))]
    have hs : (x - 1).toInt = n - 1 := by rw [w_sub] <;> simp only [hx.1, w_one] <;> omega
    have hb := tdiv_le_abs (n - 1) (lineCountT n g)
    have hd : ((x - 1) / y).toInt = (n - 1).tdiv (lineCountT n g) := by
      rw [w_div, hs, hl] <;> rw [hs, hl] <;> omega
    have hq : ((x - 1) / y + 1).toInt = (n - 1).tdiv (lineCountT n g) + 1 := by
      rw [w_add] <;> simp only [hd, w_one] <;> omega
    rw [talk_bind_eq, Talk.bind]
    by_cases hgt : (g : Int) > (n - 1).tdiv (lineCountT n g) + 1
    · rw [if_pos hgt, if_pos (show gw > (x - 1) / y + 1 from goInt_lt.2 (by omega))]
      exact .ret rfl
    · rw [if_neg hgt, if_neg (show ¬ gw > (x - 1) / y + 1 from fun h => by
        have := goInt_lt.1 h; omega), List.range_eq_range' (n := g)]
      refine Agree.bind (measureGroupsW_agree hg (fun z j hz hj => ?_) (rounds w) 0 0 g w_zero (by omega)
        (by rw [rounds_eq]; omega)) fun a b hab => by subst hab; exact .ret rfl
      have hm0 := group_mul_bounds hn hpos hlt (j := j) (by omega)
      have hm1 := group_mul_bounds hn hpos hlt (j := j + 1) (by omega)
      have hz1 : (z + 1).toInt = ((j + 1 : Nat) : Int) := by rw [w_add] <;> simp only [hz, w_one] <;> omega
      have e0 : (z * y).toInt = j * lineCountT n g := by
        rw [w_mul, hz, hl] <;> simp only [hz, hl]
        · exact hm0.1
        · exact hm0.2
      have e1 : ((z + 1) * y).toInt = ((j : Int) + 1) * lineCountT n g := by
        rw [w_mul, hz1, hl]
        · simp
        · rw [hz1, hl]; exact hm1.1
        · rw [hz1, hl]; exact hm1.2
      have e2 : (if (z + 1) * y > x then x else (z + 1) * y).toInt
          = if ((j : Int) + 1) * lineCountT n g > n then n else ((j : Int) + 1) * lineCountT n g := by
        by_cases hc : ((j : Int) + 1) * lineCountT n g > n
        · rw [if_pos hc, if_pos (show (z + 1) * y > x from goInt_lt.2 (by rw [e1, hx.1]; exact hc)), hx.1]
        · rw [if_neg hc, if_neg (show ¬ (z + 1) * y > x from fun h => by
            have := goInt_lt.1 h; rw [e1, hx.1] at this; exact hc this), e1]
      refine Agree.mapM _ fun c _ => maxCellWidthW_V f c e2 (rounds w) _ _ 0 e0 ?_
      rw [rounds_eq]
      have b0 := hm0.1
      push_cast at hm1
      have b1 : (if ((j : Int) + 1) * lineCountT n g > n then n else ((j : Int) + 1) * lineCountT n g) ≤ n := by
        split <;> omega
      omega

theorem compactLoopVW_agree (f : Flags) (t : Table σ ι ν ε) (maxWidth margin : UInt16) {initW : GoInt w} {init : Nat}
    (hi : initW.toInt = init) (hpos : 0 < init) (fuel : Nat) :
    ∀ (x : GoInt w) (extra : Nat) (ws : List UInt16), x.toInt = extra → init + extra + fuel < quarter w - 1 →
      Agree (Moderate w) (fun a b => a.1.toInt = b.1 ∧ a.2 = b.2 ∧ b.1 ≤ extra + fuel)
        (compactLoopVW f t maxWidth margin initW fuel x ws)
        (compactLoopVT f t maxWidth margin init fuel extra ws) := by
  induction fuel with
  | zero => intro x extra ws _ _; exact .unfinished
  | succ fuel ih =>
    intro x extra ws hx hb
    rw [compactLoopVW, compactLoopVT]
    have h1 : (initW + x).toInt = init + extra := by rw [w_add] <;> simp only [hi, hx] <;> omega
    have hg : (initW + x + 1).toInt = ((init + extra + 1 : Nat) : Int) := by
      rw [w_add] <;> simp only [h1, w_one] <;> omega
    refine (mergedRowsWidthVW_agree f t hg (by omega) (by omega)).bind fun a b hab => ?_
    subst hab
    cases a with
    | none => exact .ret ⟨hx, rfl, by simp⟩
    | some a =>
      simp only []
      rw [compactTotalW_eq _ _ hg]
      split
      · exact .ret ⟨hx, rfl, by simp⟩
      · have := ih (x + 1) (extra + 1) a (by rw [w_add] <;> simp only [hx, w_one] <;> omega) (by omega)
        simpa only [Nat.add_assoc, Nat.add_comm 1 fuel] using this

theorem printVW_agree (f : Flags) (t : Table σ ι ν ε) (sep : GoString) {gw : GoInt w} {g : Nat} (hg : gw.toInt = g)
    (hpos : 0 < g) (hlt : g < quarter w - 1) {gwW : Nat → GoInt w → Except Panic UInt16} {gwT : Nat → Nat → Except Panic UInt16}
    (hw : ∀ (x : GoInt w) (j : Nat), x.toInt = j → j < g → ∀ c, c < t.columns.length → gwW c x = gwT c j) :
    Agree (Moderate w) Eq (printVW f t sep gw gwW) (printVT f t sep g gwT) := by
  rw [printVW, printVT]
  refine (Agree.askLen fun n h => h).bind fun x n hx => ?_
  rw [← pure_bind (m := Talk) (lineCountT n g) fun l => writeLinesT sep
    (fun lineI => lineGroupsT f t n gwT (indexV l.toNat lineI) g 0) l.toNat 0]
  refine (lineCount_agree hx.1 hx.2 hg hpos).bind fun y l hl => ?_
  obtain ⟨hl, rfl⟩ := hl
  have hy := goInt_lt_max y
  refine writeLinesW_agree sep (by rw [hl]) (fun z i hz hi => lineGroupsW_agree f t hx.1 hg hw
    (fun v j hv hj => ?_) (rounds w) 0 0 w_zero (by rw [rounds_eq]; omega)) (rounds w) 0 0 w_zero (by rw [rounds_eq]; omega)
  have hb := group_mul_bounds hx.2 hpos hlt (j := j + 1) (by omega)
  have hp : 0 ≤ (j : Int) * lineCountT n g := Int.mul_nonneg (by omega) (by omega)
  push_cast at hb
  rw [Int.add_mul, Int.one_mul] at hb
  have hm : (v * y).toInt = j * lineCountT n g := by rw [w_mul] <;> simp only [hv, hl] <;> omega
  have he : ((j * (lineCountT n g).toNat : Nat) : Int) = j * lineCountT n g := by
    rw [Int.natCast_mul, Int.toNat_of_nonneg (by omega)]
  rw [indexV, w_add, hm, hz]
  · omega
  · rw [hm, hz]; omega
  · rw [hm, hz]; omega

theorem mergeVW_agree (f : Flags) (t : Table σ ι ν ε) (arg : GoInt w) (sep : GoString) (compact : Bool) (fuel : Nat)
    (h1 : 2 * fuel < quarter w) (h2 : (65535 + fuel) * t.columnCount < 2 * quarter w) :
    Agree (Moderate w) Eq (mergeRowsVerticalW f t arg sep compact fuel)
      (mergeRowsVerticalT f t arg.toInt sep compact fuel) := by
  have hq4 := quarter_le (w := w)
  rw [mergeRowsVerticalW, mergeRowsVerticalT]
  cases hgc : initialGroupCount t (maxWidthOf arg.toInt) (u16 sep.length) with
  | error p => exact .panic p
  | ok g =>
    have hgb : 0 < g ∧ g ≤ 65535 := by
      rw [initialGroupCount] at hgc
      split at hgc
      · cases hgc
      · have hlt := UInt16.toNat_lt ((maxWidthOf arg.toInt + u16 sep.length) / (t.tableWidth (u16 sep.length) + u16 sep.length))
        injection hgc with hgc
        split at hgc <;> omega
    have hG : (GoInt.ofNat g : GoInt w).toInt = g := w_ofNat (by omega)
    have hplain := printVW_agree f t sep hG hgb.1 (by omega) (gwW := getWidthTableW t) (gwT := getWidthTable t)
      (fun _ _ _ _ _ _ => rfl)
    refine Agree.bind (R := fun a b => a = g ∧ b = g) (.ret ⟨rfl, rfl⟩) fun a b hab => ?_
    rw [hab.1, hab.2]
    clear hab a b
    cases compact
    · exact hplain
    · refine Agree.bind (compactLoopVW_agree f t _ _ hG hgb.1 fuel 0 0 [] w_zero (by omega)) fun a b hab => ?_
      obtain ⟨ha, hws, hb⟩ := hab
      by_cases hpos : b.1 > 0
      · rw [if_pos hpos, if_pos (show a.1 > 0 from goInt_lt.2 (by rw [w_zero]; omega))]
        refine printVW_agree f t sep (g := g + b.1) ?_ (by omega) (by omega) fun x j hx hj c hc => ?_
        · rw [w_add] <;> simp only [hG, ha] <;> omega
        · rw [hws]
          refine getWidthCompactW_eq _ _ (g := g + b.1) ?_ hx hj hc
          exact Nat.lt_of_le_of_lt (Nat.mul_le_mul_right _ (by omega)) h2
      · rw [if_neg hpos, if_neg (show ¬ a.1 > 0 from fun hc => by
          have := goInt_lt.1 hc; rw [w_zero] at this; omega)]
        exact hplain

end GoTable
