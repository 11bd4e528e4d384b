import Verif.Spec.Table
/-! Tables: widths are maxima, items stop at the first error. -/

namespace GoTable
open Spec

variable {σ ι ν ε : Type}

/-- One width report. -/
def raise (cw : WidthMap) (e : GoString × UInt16) : WidthMap :=
  if e.2 > cw e.1 then WidthMap.set cw e.1 e.2 else cw

theorem updateWidth_cons (cw : WidthMap) (e : GoString × UInt16) (es : List (GoString × UInt16)) :
    updateWidth cw (e :: es) = updateWidth (raise cw e) es := rfl

theorem updateWidth_append (cw : WidthMap) (as bs : List (GoString × UInt16)) :
    updateWidth cw (as ++ bs) = updateWidth (updateWidth cw as) bs := by
  simp [updateWidth, List.foldl_append]

theorem raise_apply (cw : WidthMap) (e : GoString × UInt16) (n : GoString) :
    (raise cw e n).toNat = if e.1 = n then max (cw n).toNat e.2.toNat else (cw n).toNat := by
  unfold raise
  by_cases hn : e.1 = n
  · subst hn
    by_cases h : e.2 > cw e.1
    · have h' : (cw e.1).toNat < e.2.toNat := UInt16.lt_iff_toNat_lt.mp h
      simp only [h, if_true, WidthMap.set]; omega
    · have h' : ¬ (cw e.1).toNat < e.2.toNat := fun x => h (UInt16.lt_iff_toNat_lt.mpr x)
      simp only [h, if_false, if_true]; omega
  · have hn' : ¬ n = e.1 := fun x => hn x.symm
    split <;> simp [WidthMap.set, hn']

/-- The width after reports: the largest of the old one and those reported. -/
theorem updateWidth_apply (cw : WidthMap) (es : List (GoString × UInt16)) (n : GoString) :
    (updateWidth cw es n).toNat = (reported n es).foldr (fun w m => max w.toNat m) (cw n).toNat := by
  induction es generalizing cw with
  | nil => rfl
  | cons e es ih =>
    rw [updateWidth_cons, ih, raise_apply]
    have key : ∀ (l : List UInt16) (a b : Nat),
        l.foldr (fun w m => max w.toNat m) (max a b) = max b (l.foldr (fun w m => max w.toNat m) a) := by
      intro l a b
      induction l with
      | nil => simp [Nat.max_comm]
      | cons x l ih => simp only [List.foldr_cons, ih]; omega
    by_cases h : e.1 = n
    · simp only [h, if_true, reported, List.filter_cons, decide_true, List.map_cons, List.foldr_cons]
      rw [key]
    · simp [h, reported]

theorem foldr_max_spec (ws : List UInt16) (m0 : UInt16) :
    ∃ m : UInt16, m.toNat = ws.foldr (fun w m => max w.toNat m) m0.toNat ∧
      (∀ w ∈ m0 :: ws, w ≤ m) ∧ (m ∈ m0 :: ws) := by
  induction ws with
  | nil => exact ⟨m0, rfl, by simp, by simp⟩
  | cons w ws ih =>
    obtain ⟨m, hm, hle, hmem⟩ := ih
    have hle' : ∀ x ∈ m0 :: ws, x.toNat ≤ m.toNat := fun x hx => UInt16.le_iff_toNat_le.mp (hle x hx)
    by_cases h : w.toNat ≤ m.toNat
    · refine ⟨m, ?_, ?_, ?_⟩
      · simp only [List.foldr_cons, ← hm]; omega
      · intro x hx
        rw [UInt16.le_iff_toNat_le]
        simp only [List.mem_cons] at hx hle'
        rcases hx with rfl | rfl | hx
        · exact hle' _ (Or.inl rfl)
        · exact h
        · exact hle' _ (Or.inr hx)
      · simp only [List.mem_cons] at hmem ⊢
        rcases hmem with h | h <;> simp [h]
    · refine ⟨w, ?_, ?_, by simp⟩
      · simp only [List.foldr_cons, ← hm]; omega
      · intro x hx
        rw [UInt16.le_iff_toNat_le]
        simp only [List.mem_cons] at hx hle'
        rcases hx with rfl | rfl | hx
        · have := hle' _ (Or.inl rfl); omega
        · exact Nat.le_refl _
        · have := hle' _ (Or.inr hx); omega

/-- The same as a maximum. -/
theorem updateWidth_isMax (cw : WidthMap) (es : List (GoString × UInt16)) (n : GoString) :
    (∀ w ∈ cw n :: reported n es, w ≤ updateWidth cw es n) ∧
    updateWidth cw es n ∈ cw n :: reported n es := by
  obtain ⟨m, hm, h1, h2⟩ := foldr_max_spec (reported n es) (cw n)
  have : updateWidth cw es n = m := by rw [← UInt16.toNat_inj, updateWidth_apply, hm]
  rw [this]; exact ⟨h1, h2⟩

theorem isMax_step {ws : List UInt16} {m : UInt16} (h : IsMax ws m) (es : List UInt16) (m' : UInt16)
    (h1 : ∀ w ∈ m :: es, w ≤ m') (h2 : m' ∈ m :: es) : IsMax (es ++ ws) m' := by
  constructor
  · intro w hw
    rcases List.mem_append.mp hw with hw | hw
    · exact h1 w (by simp [hw])
    · exact UInt16.le_trans (h.1 w hw) (h1 m (by simp))
  · rcases List.mem_cons.mp h2 with h' | h'
    · rw [h']
      rcases h.2 with h | h
      · exact Or.inl h
      · exact Or.inr (by simp [h])
    · exact Or.inr (by simp [h'])

theorem reported_append (n : GoString) (a b : List (GoString × UInt16)) :
    reported n (a ++ b) = reported n a ++ reported n b := by simp [reported]

/-! ## FormatItem -/

/-- The loop of `FormatItem` in terms of the cells up to the first error. -/
theorem formatItemLoop_eq (f : Flags) (item : ι) (cols : List (Column σ ι ν ε)) (acc : List GoString)
    (cw : WidthMap) (st : σ) :
    formatItemLoop f item cols acc cw st =
      (resultOf (acc ++ (upToError (fun c st => cell c item st) cols st).1)
          (upToError (fun c st => cell c item st) cols st).2.1,
        updateWidth cw ((cols.map Column.name).zip
          ((upToError (fun c st => cell c item st) cols st).1.map (visualWidth f))),
        (upToError (fun c st => cell c item st) cols st).2.2) := by
  induction cols generalizing acc cw st with
  | nil => simp [formatItemLoop, upToError, resultOf, updateWidth]
  | cons c cs ih =>
    unfold formatItemLoop upToError cell
    rcases hv : c.getter.value item st with ⟨_ | v, st1⟩
    · simp [resultOf, updateWidth]
    · dsimp only
      rcases hf : c.getter.format item v st1 with ⟨_ | x, st2⟩
      · simp [resultOf, updateWidth]
      · dsimp only
        rw [ih]
        simp only [List.map_cons, List.zip_cons_cons, updateWidth_cons, List.append_assoc,
          List.cons_append, List.nil_append]
        rfl

theorem formatItem_eq (f : Flags) (t : Table σ ι ν ε) (item : ι) (st : σ) :
    t.formatItem f item st =
      (resultOf (upToError (fun c st => cell c item st) t.columns st).1
          (upToError (fun c st => cell c item st) t.columns st).2.1,
        { t with columnWidth := updateWidth t.columnWidth ((t.columns.map Column.name).zip
          ((upToError (fun c st => cell c item st) t.columns st).1.map (visualWidth f))) },
        (upToError (fun c st => cell c item st) t.columns st).2.2) := by
  simp [Table.formatItem, formatItemLoop_eq]

/-! ## FormatItemBasic -/

theorem formatItemBasicLoop_eq (item : ι) (sep : GoString) (cols : List (Column σ ι ν ε)) (i : Nat)
    (hi : 0 < i) (str : GoString) (st : σ) :
    formatItemBasicLoop item sep cols i str st =
      (resultOf (str ++ ((upToError (fun c st => c.getter.valueString c.name item st) cols st).1.flatMap
          (fun x => sep ++ x)))
        (upToError (fun c st => c.getter.valueString c.name item st) cols st).2.1,
       (upToError (fun c st => c.getter.valueString c.name item st) cols st).2.2) := by
  induction cols generalizing i str st with
  | nil => simp [formatItemBasicLoop, upToError, resultOf]
  | cons c cs ih =>
    unfold formatItemBasicLoop upToError
    rcases hv : c.getter.valueString c.name item st with ⟨_ | v, st1⟩
    · simp [resultOf]
    · dsimp only
      rw [ih (i + 1) (by omega)]
      simp [hi, List.flatMap_cons]

end GoTable
