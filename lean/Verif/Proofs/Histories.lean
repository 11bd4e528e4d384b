import Verif.Proofs.RuneWidth
import Verif.Spec.Histories
/-! Invariants of the lookup table under histories. -/

namespace GoTable
open Spec

/-- What a condition measures: the flags `f`. -/
def Measures (c : Condition) (f : Flags) : Prop := LutFor c f ∨ (c.combinedLut = [] ∧ c.flags = f)

theorem measures_runeWidth {c : Condition} {f : Flags} (h : Measures c f) (r : Int) :
    c.runeWidth r = some (runeWidth f r) := by
  rcases h with h | ⟨h, rfl⟩
  · exact lutFor_runeWidth c f h r
  · exact noLut_runeWidth c h r

theorem measures_clusterWidth {c : Condition} {f : Flags} (h : Measures c f) (l : List Nat) :
    c.clusterWidth l = some (clusterWidth (fun r => runeWidth f r) l) := by
  induction l with
  | nil => rfl
  | cons r rs ih =>
    rw [Condition.clusterWidth, measures_runeWidth h, clusterWidth]
    dsimp only
    split
    · rfl
    · exact ih

theorem mapM_some {α β : Type} (g : α → Option β) (h : α → β) (l : List α) (hg : ∀ a, g a = some (h a)) :
    l.mapM g = some (l.map h) := by
  induction l with
  | nil => rfl
  | cons a l ih => rw [List.mapM_cons, hg, ih]; rfl

theorem measures_stringWidth {c : Condition} {f : Flags} (h : Measures c f) (s : GoString) :
    c.stringWidth s = some (stringWidth f s) := by
  unfold Condition.stringWidth stringWidth
  rw [mapM_some _ _ _ (measures_clusterWidth h)]
  rfl

theorem condAfter_flags (f : Flags) (ops : List CondOp) : (condAfter f ops).flags = flagsAfter f ops := by
  unfold condAfter flagsAfter
  suffices h : ∀ c : Condition, (ops.foldl CondOp.apply c).flags =
      ops.foldl (fun f op => match op with | .setFlags g => g | .createLUT => f) c.flags from h _
  induction ops with
  | nil => intro c; rfl
  | cons op ops ih =>
    intro c
    rw [List.foldl_cons, List.foldl_cons, ih]
    cases op <;> rfl

theorem lut_or_none_step (c : Condition) (op : CondOp) (h : c.combinedLut = [] ∨ ∃ f, LutFor c f) :
    (op.apply c).combinedLut = [] ∨ ∃ f, LutFor (op.apply c) f := by
  cases op with
  | setFlags g => exact h
  | createLUT => exact Or.inr ⟨_, createLUT_lutFor c h⟩

theorem lut_or_none (c : Condition) (ops : List CondOp) (h : c.combinedLut = [] ∨ ∃ f, LutFor c f) :
    (ops.foldl CondOp.apply c).combinedLut = [] ∨ ∃ f, LutFor (ops.foldl CondOp.apply c) f := by
  induction ops generalizing c with
  | nil => exact h
  | cons op ops ih => exact ih _ (lut_or_none_step c op h)

theorem lut_kept (c : Condition) (ops : List CondOp) (h : CondOp.createLUT ∉ ops) :
    (ops.foldl CondOp.apply c).combinedLut = c.combinedLut := by
  induction ops generalizing c with
  | nil => rfl
  | cons op ops ih =>
    rw [List.foldl_cons, ih _ (fun hm => h (List.mem_cons_of_mem _ hm))]
    cases op with
    | setFlags g => rfl
    | createLUT => simp at h

theorem condAfter_measures_lut (f : Flags) (pre post : List CondOp) (h : CondOp.createLUT ∉ post) :
    Measures (condAfter f (pre ++ CondOp.createLUT :: post)) (flagsAfter f pre) := by
  left
  unfold LutFor
  rw [condAfter, List.foldl_append, List.foldl_cons, lut_kept _ _ h]
  rw [← condAfter_flags]
  exact createLUT_lutFor _ (lut_or_none _ _ (Or.inl rfl))

theorem condAfter_measures_none (f : Flags) (ops : List CondOp) (h : CondOp.createLUT ∉ ops) :
    Measures (condAfter f ops) (flagsAfter f ops) := by
  right
  exact ⟨lut_kept _ _ h, condAfter_flags f ops⟩

/-! ## Package variables -/

/-- The invariant of the package variables. -/
def PkgInv (g : Globals) : Prop :=
  g.strictEmojiNeutral = true ∧ g.defaultCondition.flags = ⟨g.eastAsianWidth, true⟩ ∧
  (g.defaultCondition.combinedLut = [] ∨ LutFor g.defaultCondition g.defaultCondition.flags)

theorem lut_pos {c : Condition} {f : Flags} (h : LutFor c f) : 0 < c.combinedLut.length := by
  rw [h, List.length_map, List.length_range]; omega

theorem pkgInv_createLUT (g : Globals) (h : PkgInv g) : PkgInv g.createLUT ∧
    g.createLUT.eastAsianWidth = g.eastAsianWidth := by
  obtain ⟨h1, h2, h3⟩ := h
  unfold Globals.createLUT
  split
  · exact ⟨⟨h1, h2, h3⟩, rfl⟩
  · refine ⟨⟨h1, h2, Or.inr ?_⟩, rfl⟩
    exact createLUT_lutFor _ (h3.imp id (fun h => ⟨_, h⟩))

theorem envSays_eq (env : GoString) (isEA : Bool) :
    (if env = [] then isEA else env == lit "1") = envSays env isEA := by
  unfold envSays
  split
  · rfl
  · exact Bool.eq_iff_iff.mpr (by simp)

theorem pkgInv_handleEnv (g : Globals) (env : GoString) (isEA : Bool) (h : PkgInv g) :
    PkgInv (g.handleEnv env isEA) ∧ (g.handleEnv env isEA).eastAsianWidth = envSays env isEA := by
  obtain ⟨h1, h2, h3⟩ := h
  unfold Globals.handleEnv
  dsimp only
  rw [envSays_eq]
  generalize envSays env isEA = ea
  by_cases hc : g.defaultCondition.flags.eastAsianWidth ≠ ea
  · rw [if_pos hc]
    split
    · have := pkgInv_createLUT { g with
        eastAsianWidth := ea
        defaultCondition := { combinedLut := [], flags := ⟨ea, g.defaultCondition.flags.strictEmojiNeutral⟩ } }
        ⟨h1, by rw [h2], Or.inl rfl⟩
      exact this
    · rename_i hl
      refine ⟨⟨h1, ?_, Or.inl ?_⟩, rfl⟩
      · simp only [h2]
      · rcases h3 with h3 | h3
        · exact h3
        · exact absurd (lut_pos h3) hl
  · rw [if_neg hc]
    have hc' : g.defaultCondition.flags.eastAsianWidth = ea := by simpa using hc
    refine ⟨⟨h1, ?_, h3⟩, rfl⟩
    rw [h2] at hc' ⊢
    simp only at hc'
    rw [hc']

theorem pkgInv_step (g : Globals) (op : PkgOp) (h : PkgInv g) : PkgInv (op.apply g) := by
  cases op with
  | handleEnv env isEA => exact (pkgInv_handleEnv g env isEA h).1
  | createLUT => exact (pkgInv_createLUT g h).1

theorem pkgInv_foldl (g : Globals) (ops : List PkgOp) (h : PkgInv g) : PkgInv (ops.foldl PkgOp.apply g) := by
  induction ops generalizing g with
  | nil => exact h
  | cons op ops ih => exact ih _ (pkgInv_step g op h)

theorem pkgInv_after (ops : List PkgOp) : PkgInv (pkgAfter ops) :=
  pkgInv_foldl _ ops ⟨rfl, rfl, Or.inl rfl⟩

theorem pkgInv_measures {g : Globals} (h : PkgInv g) : Measures g.defaultCondition ⟨g.eastAsianWidth, true⟩ := by
  obtain ⟨_, h2, h3⟩ := h
  rw [h2] at h3
  rcases h3 with h3 | h3
  · exact Or.inr ⟨h3, h2⟩
  · exact Or.inl h3

theorem ea_kept (g : Globals) (ops : List PkgOp) (h : ∀ op ∈ ops, op = PkgOp.createLUT) :
    (ops.foldl PkgOp.apply g).eastAsianWidth = g.eastAsianWidth := by
  induction ops generalizing g with
  | nil => rfl
  | cons op ops ih =>
    rw [List.foldl_cons, ih _ (fun o ho => h o (List.mem_cons_of_mem _ ho)), h op (by simp)]
    unfold PkgOp.apply Globals.createLUT
    dsimp only
    split <;> rfl

theorem pkgAfter_ea (pre post : List PkgOp) (env : GoString) (isEA : Bool)
    (h : ∀ op ∈ post, op = PkgOp.createLUT) :
    (pkgAfter (pre ++ PkgOp.handleEnv env isEA :: post)).eastAsianWidth = envSays env isEA := by
  rw [pkgAfter, List.foldl_append, List.foldl_cons, ea_kept _ _ h]
  exact (pkgInv_handleEnv _ env isEA (pkgInv_after pre)).2

end GoTable
