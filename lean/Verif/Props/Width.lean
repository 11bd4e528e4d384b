import Verif.Proofs.Histories
import Verif.Proofs.Subadd
import Verif.Proofs.UTF8
import Verif.Proofs.Ascii
/-!
# Properties of rune and string widths: C05, C06, C07, C08, C09, C10, C47, C48
-/

namespace GoTable
open Spec

/-! ## C05 -/

/-- C05. `RuneWidth` computes the plain definition by interval membership, for every `int32` and every
flag setting; in particular it is at most 2, and 0 outside the code space. -/
theorem C05_runeWidth_definition (f : Flags) (r : Int) :
    runeWidth f r = plainWidth f r ∧ runeWidth f r ≤ 2 ∧
    (r < 0 ∨ 0x10FFFF < r → runeWidth f r = 0) := by
  refine ⟨runeWidth_eq_plain f r, runeWidth_le f r, fun h => ?_⟩
  rw [runeWidth, if_pos h]

/-- All three widths and the effect of each flag occur. -/
example : runeWidth ⟨false, true⟩ 0x301 = 0 ∧ runeWidth ⟨false, true⟩ 0xA7 = 1 ∧
    runeWidth ⟨true, true⟩ 0xA7 = 2 ∧ runeWidth ⟨false, true⟩ 0x4E00 = 2 ∧
    runeWidth ⟨true, true⟩ 0x2764 = 1 ∧ runeWidth ⟨true, false⟩ 0x2764 = 2 := by
  simp only [runeWidth_eq_plain]; decide +kernel

/-! ## C06 -/

/-- C06. Whatever sequence of flag writes and `CreateLUT` calls a condition has gone through, measuring
never indexes outside the table, and gives the plain widths: for the flags that held at the last
`CreateLUT` if there was one, else for the current flags. -/
theorem C06_lut_transparent (f : Flags) (ops : List CondOp) (r : Int) (s : GoString) :
    (∀ pre post, ops = pre ++ CondOp.createLUT :: post → CondOp.createLUT ∉ post →
      (condAfter f ops).runeWidth r = some (plainWidth (flagsAfter f pre) r) ∧
      (condAfter f ops).stringWidth s = some (stringWidth (flagsAfter f pre) s)) ∧
    (CondOp.createLUT ∉ ops →
      (condAfter f ops).runeWidth r = some (plainWidth (flagsAfter f ops) r) ∧
      (condAfter f ops).stringWidth s = some (stringWidth (flagsAfter f ops) s)) := by
  constructor
  · rintro pre post rfl h
    have hm := condAfter_measures_lut f pre post h
    rw [measures_runeWidth hm, measures_stringWidth hm, runeWidth_eq_plain]
    exact ⟨rfl, rfl⟩
  · intro h
    have hm := condAfter_measures_none f ops h
    rw [measures_runeWidth hm, measures_stringWidth hm, runeWidth_eq_plain]
    exact ⟨rfl, rfl⟩

/-- A history with two tables, refreshed for the second setting of the flags: `§` is wide. -/
example : (condAfter ⟨false, true⟩ [.createLUT, .setFlags ⟨true, true⟩, .createLUT,
    .setFlags ⟨false, false⟩]).runeWidth 0xA7 = some 2 := by
  refine ((C06_lut_transparent _ _ 0xA7 []).1 [.createLUT, .setFlags ⟨true, true⟩]
    [.setFlags ⟨false, false⟩] rfl (by decide)).1.trans ?_
  decide +kernel

/-! ## C07 -/

/-- C07. After any sequence of environment reads and package-level `CreateLUT` calls that contains an
environment read, the package flag and the default condition's flag are what the last environment read
said, and the default condition measures by exactly that flag; conditions made from then on start with
that flag too. -/
theorem C07_default_condition_coherent (pre post : List PkgOp) (env : GoString) (isEA : Bool)
    (hpost : ∀ op ∈ post, op = PkgOp.createLUT) (r : Int) (s : GoString) :
    let g := pkgAfter (pre ++ PkgOp.handleEnv env isEA :: post)
    g.eastAsianWidth = envSays env isEA ∧
    g.defaultCondition.flags = ⟨envSays env isEA, true⟩ ∧
    g.defaultCondition.runeWidth r = some (plainWidth ⟨envSays env isEA, true⟩ r) ∧
    g.defaultCondition.stringWidth s = some (stringWidth ⟨envSays env isEA, true⟩ s) ∧
    g.newCondition.runeWidth r = some (plainWidth ⟨envSays env isEA, true⟩ r) := by
  dsimp only
  have hea := pkgAfter_ea pre post env isEA hpost
  have hinv := pkgInv_after (pre ++ PkgOp.handleEnv env isEA :: post)
  generalize pkgAfter (pre ++ PkgOp.handleEnv env isEA :: post) = g at hea hinv ⊢
  have hm := pkgInv_measures hinv
  rw [hea] at hm
  refine ⟨hea, ?_, ?_, measures_stringWidth hm s, ?_⟩
  · rw [hinv.2.1, hea]
  · rw [measures_runeWidth hm, runeWidth_eq_plain]
  · rw [noLut_runeWidth _ rfl, runeWidth_eq_plain, Globals.newCondition, hinv.1, hea]

/-- The flag goes on, a table is built, the flag goes off again: `§` is narrow. -/
example : (pkgAfter [.handleEnv (lit "1") false, .createLUT, .handleEnv (lit "0") true]).defaultCondition.runeWidth
    0xA7 = some 1 := by
  have := C07_default_condition_coherent [.handleEnv (lit "1") false, .createLUT] [] (lit "0") true
    (by simp) 0xA7 []
  dsimp only at this
  rw [List.cons_append, List.cons_append, List.nil_append] at this
  rw [this.2.2.1]
  decide +kernel

/-- C07. `CreateLUT` of the package makes a table for the settings at that time; while it is there, neither other
settings nor another call change a width. -/
theorem C07_frozen (pre : List PkgOp) (f : Flags) (r : Int) :
    let g := pkgAfter (pre ++ [PkgOp.createLUT])
    let g' := { g with defaultCondition := { g.defaultCondition with flags := f } }
    g'.defaultCondition.runeWidth r = (pkgAfter pre).defaultCondition.runeWidth r ∧
    g'.createLUT.defaultCondition.runeWidth r = (pkgAfter pre).defaultCondition.runeWidth r := by
  dsimp only
  have h0 := pkgInv_after pre
  have hg : pkgAfter (pre ++ [PkgOp.createLUT]) = (pkgAfter pre).createLUT := by
    rw [pkgAfter, List.foldl_append]; rfl
  rw [hg]
  generalize pkgAfter pre = g at h0 ⊢
  have hl : LutFor g.createLUT.defaultCondition g.defaultCondition.flags := by
    unfold Globals.createLUT
    split
    · rename_i h
      rcases h0.2.2 with h1 | h1
      · rw [h1] at h; simp at h
      · exact h1
    · exact createLUT_lutFor _ (h0.2.2.imp id fun h => ⟨_, h⟩)
  have hp := lut_pos hl
  have h1 := lutFor_runeWidth { g.createLUT.defaultCondition with flags := f } g.defaultCondition.flags hl r
  have h2 := measures_runeWidth (pkgInv_measures h0) r
  rw [h2, ← h0.2.1]
  refine ⟨h1, ?_⟩
  unfold Globals.createLUT at hp h1 ⊢
  rw [if_pos hp]
  exact h1

/-- So `§` stays narrow, though East Asian widths have been turned on. -/
example : ({ pkgAfter [.createLUT] with defaultCondition :=
    { (pkgAfter [.createLUT]).defaultCondition with flags := ⟨true, true⟩ } } : Globals).createLUT.defaultCondition.runeWidth
    0xA7 = some 1 := by
  have := (C07_frozen [] ⟨true, true⟩ 0xA7).2
  dsimp only [List.nil_append] at this
  rw [this]
  decide +kernel

/-! ## C08 -/

/-- C08, East Asian flag. -/
theorem C08_east_asian_only_widens (e : Bool) (r : Int) (s : GoString) :
    runeWidth ⟨false, e⟩ r ≤ runeWidth ⟨true, e⟩ r ∧
    stringWidth ⟨false, e⟩ s ≤ stringWidth ⟨true, e⟩ s := by
  refine ⟨runeWidth_mono _ _ r (Or.inl rfl), ?_⟩
  rw [stringWidth_eq_sw, stringWidth_eq_sw]
  exact sw_mono _ _ (fun r => runeWidth_mono _ _ r (Or.inl rfl)) (fun r => (runeWidth_zero_iff _ _ r).mp) _

/-- C08, strict emoji neutrality. -/
theorem C08_emoji_only_widens (ea : Bool) (r : Int) (s : GoString) :
    runeWidth ⟨ea, true⟩ r ≤ runeWidth ⟨ea, false⟩ r ∧
    stringWidth ⟨ea, true⟩ s ≤ stringWidth ⟨ea, false⟩ s := by
  have hm : ∀ r : Int, runeWidth ⟨ea, true⟩ r ≤ runeWidth ⟨ea, false⟩ r := fun r =>
    runeWidth_mono _ _ r (by cases ea <;> simp)
  refine ⟨hm r, ?_⟩
  rw [stringWidth_eq_sw, stringWidth_eq_sw]
  exact sw_mono _ _ (fun r => hm r) (fun r => (runeWidth_zero_iff _ _ r).mp) _

/-- Both inequalities can be strict. -/
example : stringWidth ⟨false, true⟩ (lit "§❤") = 2 ∧ stringWidth ⟨true, true⟩ (lit "§❤") = 3 ∧
    stringWidth ⟨true, false⟩ (lit "§❤") = 4 := by
  simp only [stringWidth, runeWidth_eq_plain]; decide +kernel

/-! ## C09 -/

theorem sum_le_of_forall {α : Type} (l : List α) (f g : α → Nat) (h : ∀ a ∈ l, f a ≤ g a) :
    (l.map f).sum ≤ (l.map g).sum := by
  induction l with
  | nil => simp
  | cons a l ih =>
    simp only [List.map_cons, List.sum_cons]
    have := h a (by simp)
    have := ih (fun x hx => h x (List.mem_cons_of_mem _ hx))
    omega

theorem stringWidth_le_length (f : Flags) (s : GoString)
    (h : ∀ t ∈ tokens s, runeWidth f t.1 ≤ t.2) : stringWidth f s ≤ s.length := by
  rw [stringWidth_eq_sw]
  refine Nat.le_trans (sw_le_sum _ _) ?_
  rw [runes, List.map_map]
  conv_rhs => rw [← tokens_sizes s]
  exact sum_le_of_forall _ _ _ h

/-- C09. -/
theorem C09_stringWidth_bounds (f : Flags) (s : GoString) :
    stringWidth f s ≤ 2 * (clustersFrom (newGraphemes s)).length ∧
    (f.eastAsianWidth = false → stringWidth f s ≤ s.length) ∧
    (ValidUTF8 s → stringWidth f s ≤ s.length) := by
  refine ⟨?_, fun hf => stringWidth_le_length f s fun t ht => ?_,
    fun hv => stringWidth_le_length f s fun t ht => ?_⟩
  · unfold stringWidth
    generalize clustersFrom (newGraphemes s) = cs
    induction cs with
    | nil => simp
    | cons c cs ih =>
      simp only [List.map_cons, List.sum_cons, List.length_cons]
      have := clusterWidth_le_bound (fun r => runeWidth f r) 2 (fun r => runeWidth_le f r) c
      omega
  · have hm := mem_tokens s t ht
    have hle := runeWidth_le f t.1
    by_cases h2 : runeWidth f t.1 = 2
    · obtain ⟨h3, h4⟩ := (runeWidth_two f t.1 h2).2 hf
      have : t.1 ≠ 0xFFFD := by
        intro he
        rw [he] at h4
        exact absurd h4 (by decide +kernel)
      omega
    · omega
  · have hm := mem_tokens s t ht
    have hle := runeWidth_le f t.1
    have hne : ¬ (t.1 = 0xFFFD ∧ t.2 = 1) := by
      rintro ⟨h1, h2⟩
      have : t = (runeError, 1) := Prod.ext h1 h2
      exact valid_no_error hv (this ▸ ht)
    by_cases h2 : runeWidth f t.1 = 2
    · have := (runeWidth_two f t.1 h2).1
      omega
    · omega

/-- Valid UTF-8 that meets the hypothesis, and the reason it is needed: a stray byte is measured 2. -/
example : ValidUTF8 (lit "é中") ∧ stringWidth ⟨true, true⟩ (lit "é中") = 4 :=
  ⟨⟨[0xE9, 0x4E2D], by simp [Scalar], by decide +kernel⟩, by
    simp only [stringWidth, runeWidth_eq_plain]; decide +kernel⟩
example : stringWidth ⟨true, true⟩ [0xFF] = 2 := by
  simp only [stringWidth, runeWidth_eq_plain]; decide +kernel

/-! ## C10 -/

/-- C10. A printable ASCII string adds exactly its length to any text that does not end in a Prepend
character (with `a = ""`: its width is its length). -/
theorem C10_ascii_width (f : Flags) (a b : GoString) (hb : ∀ c ∈ b, 0x20 ≤ c.toNat ∧ c.toNat ≤ 0x7E)
    (ha : ¬ EndsInPrepend a) :
    stringWidth f (a ++ b) = stringWidth f a + b.length :=
  stringWidth_append_ascii f a b hb ha

/-- C10, nothing before. -/
theorem C10_ascii_width_alone (f : Flags) (b : GoString) (hb : ∀ c ∈ b, 0x20 ≤ c.toNat ∧ c.toNat ≤ 0x7E) :
    stringWidth f b = b.length := stringWidth_ascii f b hb

/-- After a flag pair and an accented letter; and the reason for the hypothesis (U+0600 is Prepend). -/
example : ¬ EndsInPrepend (lit "🇩🇪é") ∧
    stringWidth ⟨false, true⟩ (lit "🇩🇪é") = 2 ∧
    stringWidth ⟨false, true⟩ (lit "🇩🇪é" ++ lit "ab ") = 5 := by decide +kernel
example : stringWidth ⟨false, true⟩ (lit "؀") = 1 ∧
    stringWidth ⟨false, true⟩ (lit "؀" ++ lit "a") = 1 := by decide +kernel

/-! ## C47 -/

/-- C47. Decoding one character of a non-empty byte string either reads the complete encoding of a
scalar value, or, when the bytes start with no encoding at all, reads one byte as U+FFFD. -/
theorem C47_decode_one (s : GoString) (hs : s ≠ []) :
    (∃ r, Scalar r ∧ encode r <+: s ∧ decodeRune s = (r, (encode r).length)) ∨
    ((∀ r, Scalar r → ¬ encode r <+: s) ∧ decodeRune s = (0xFFFD, 1)) := by
  by_cases h : ∃ r, Scalar r ∧ encode r <+: s
  · obtain ⟨r, h1, t, rfl⟩ := h
    exact Or.inl ⟨r, h1, ⟨t, rfl⟩, decodeRune_encode r h1 t⟩
  · refine Or.inr ⟨fun r h1 h2 => h ⟨r, h1, h2⟩, ?_⟩
    rcases decodeRune_prefix s hs with h1 | ⟨h1, _, h3⟩
    · exact h1
    · exact absurd ⟨_, h1, h3⟩ h

/-- C47. The characters read have positive sizes that add up to the byte string, and text that starts
with a byte that cannot continue a character (such as any ASCII byte, or any valid UTF-8) leaves the
decoding of what is before it unchanged. -/
theorem C47_decode_all (s t : GoString) :
    (∀ e ∈ tokens s, 1 ≤ e.2 ∧ e.2 ≤ 4) ∧ ((tokens s).map Prod.snd).sum = s.length ∧
    ((∀ b, t.head? = some b → b.toNat < 0x80) ∨ ValidUTF8 t → runes (s ++ t) = runes s ++ runes t) := by
  refine ⟨fun e he => ?_, tokens_sizes s, fun h => runes_append s t ?_⟩
  · have := mem_tokens s e he; omega
  · rcases h with h | h
    · cases t with
      | nil => rfl
      | cons b t => exact startsClean_ascii_cons b t (h b rfl)
    · exact startsClean_valid h

/-- A truncated character, a surrogate half and an overlong form, each byte read on its own. -/
example : runes ([0xE4, 0xB8] ++ lit "a") = [0xFFFD, 0xFFFD, 0x61] ∧
    runes [0xED, 0xA0, 0x80, 0xC0, 0xAF] = [0xFFFD, 0xFFFD, 0xFFFD, 0xFFFD, 0xFFFD] := by decide +kernel

/-! ## C48 -/

/-- C48. -/
theorem C48_stringWidth_subadditive (f : Flags) (a b : GoString) (hb : ValidUTF8 b) :
    stringWidth f (a ++ b) ≤ stringWidth f a + stringWidth f b :=
  stringWidth_subadditive f a b (runes_append a b (startsClean_valid hb))

/-- Strict when clusters merge: two regional indicators make one flag. -/
example : ValidUTF8 (lit "🇪x") ∧ stringWidth ⟨false, true⟩ (lit "🇩" ++ lit "🇪x") = 2 ∧
    stringWidth ⟨false, true⟩ (lit "🇩") = 1 ∧ stringWidth ⟨false, true⟩ (lit "🇪x") = 2 :=
  ⟨⟨[0x1F1EA, 0x78], by simp [Scalar], by decide +kernel⟩, by
    simp only [stringWidth, runeWidth_eq_plain]; decide +kernel⟩

end GoTable
