import Verif.Props.GenFiles
/-!
# C99: negative numbers in the data of the width tables
-/

namespace GoTable
open Spec

/-- A line of the width file that counts, `C65_width_exact`. -/
def WidthEntry (line : GoString) (lo hi : Int) (cls : GoString) : Prop :=
  line.head? ≠ some 0x23 ∧ ∃ s, StartsWithRange line lo hi ([0x3B] ++ s) ∧ StartsWithWord s cls

/-- A line of the emoji file that counts, `C65_emoji_exact`. -/
def EmojiEntry (line : GoString) (lo hi : Int) : Prop :=
  line.head? ≠ some 0x23 ∧ 0xFF ≤ hi ∧ ∃ rest, StartsWithRange line lo hi rest ∧ FieldEnd rest

/-- Some table takes lines like this. -/
def Tabulated (line cls : GoString) : Prop :=
  lit "COMBINING" <:+: line ∨ cls ∈ ["W", "F", "A", "Na", "N"].map lit

theorem compactRunes_negative (l : List (Int × Int))
    (h : ∀ p ∈ l, -2 ^ 31 ≤ p.1 ∧ p.1 ≤ p.2 ∧ p.2 < 2 ^ 31 - 1) (hn : ∃ p ∈ l, p.1 < 0) :
    ∃ p ∈ compactRunes l, p.1 < 0 := by
  induction hk : l.length using Nat.strongRecOn generalizing l with
  | ind k ih =>
    subst hk
    match l, h, hn with
    | [], _, hn => simp at hn
    | [a], _, hn => simpa [compactRunes] using hn
    | a :: b :: l, h, hn =>
      have ha := h a (by simp)
      have hb := h b (by simp)
      rw [compactRunes]
      by_cases hm : wrapRune (a.2 + 1) = b.1
      · rw [if_pos hm]
        have hm' : a.2 + 1 = b.1 := by
          unfold wrapRune at hm
          omega
        refine ih _ (by simp) ((a.1, b.2) :: l) ?_ ?_ rfl
        · intro p hp
          rcases List.mem_cons.mp hp with rfl | hp
          · dsimp only; omega
          · exact h p (by simp [hp])
        · obtain ⟨p, hp, hlt⟩ := hn
          simp only [List.mem_cons] at hp
          rcases hp with rfl | rfl | hp
          · exact ⟨_, List.mem_cons_self, hlt⟩
          · exact ⟨_, List.mem_cons_self, by dsimp only; omega⟩
          · exact ⟨p, List.mem_cons_of_mem _ hp, hlt⟩
      · rw [if_neg hm]
        obtain ⟨p, hp, hlt⟩ := hn
        rcases List.mem_cons.mp hp with rfl | hp
        · exact ⟨_, List.mem_cons_self, hlt⟩
        · obtain ⟨q, hq, h'⟩ := ih _ (by simp) (b :: l) (fun p hp => h p (List.mem_cons_of_mem _ hp)) ⟨p, hp, hlt⟩ rfl
          exact ⟨q, List.mem_cons_of_mem _ hq, h'⟩

theorem compactRunes_nonneg (l : List (Int × Int)) (h : ∀ p ∈ l, 0 ≤ p.1 ∧ 0 ≤ p.2) :
    ∀ p ∈ compactRunes l, 0 ≤ p.1 ∧ 0 ≤ p.2 := by
  induction hk : l.length using Nat.strongRecOn generalizing l with
  | ind k ih =>
    subst hk
    match l, h with
    | [], _ => simp [compactRunes]
    | [a], h => simpa [compactRunes] using h
    | a :: b :: l, h =>
      have ha := h a (by simp)
      have hb := h b (by simp)
      rw [compactRunes]
      split
      · refine ih _ (by simp) ((a.1, b.2) :: l) ?_ rfl
        intro p hp
        rcases List.mem_cons.mp hp with rfl | hp
        · exact ⟨ha.1, hb.2⟩
        · exact h p (by simp [hp])
      · intro p hp
        rcases List.mem_cons.mp hp with rfl | hp
        · exact ha
        · exact ih _ (by simp) (b :: l) (fun p hp => h p (List.mem_cons_of_mem _ hp)) rfl p hp

theorem pickWidth_entry {q : GoString → GoString → Bool} {line : GoString} {p : Int × Int} :
    pickWidth q line = some p ↔ ∃ cls, WidthEntry line p.1 p.2 cls ∧ q line cls = true := by
  unfold pickWidth
  constructor
  · intro h
    split at h
    · rename_i lo hi cls hs
      split at h
      · rename_i hq
        cases h
        exact ⟨cls, (C65_width_exact _ _ _ _).mp hs, hq⟩
      · cases h
    · cases h
  · rintro ⟨cls, he, hq⟩
    rw [(C65_width_exact _ _ _ _).mpr he]
    simp [hq]

theorem startsWithNumber_bounds {s rest : GoString} {n : Int} (h : StartsWithNumber s n rest) : -2 ^ 31 ≤ n ∧ n < 2 ^ 31 := by
  obtain ⟨_, _, _, _, _, _, _, _, _, h1, h2⟩ := h
  exact ⟨h1, h2⟩

theorem startsWithRange_bounds {s rest : GoString} {lo hi : Int} (h : StartsWithRange s lo hi rest) : -2 ^ 31 ≤ lo := by
  rcases h with ⟨h, _⟩ | ⟨_, h, _⟩
  · exact (startsWithNumber_bounds h).1
  · exact (startsWithNumber_bounds h).1

theorem signed_no_negative {l : List (Nat × Nat)} : ¬ ∃ p ∈ signedRanges l, p.1 < 0 := by
  rintro ⟨p, hp, h⟩
  obtain ⟨q, _, rfl⟩ := List.mem_map.mp hp
  simp at h
  omega

/-- C99. The minus sign is printed after the prefix: at least three digits follow it, more only if
the first is not 0. So the text is no Go source and has
no reading as one. -/
theorem C99_not_go :
    (∀ n : Int, n < 0 → ∃ d, hexText n = lit "-" ++ d ∧ 3 ≤ d.length ∧ (∀ b ∈ d, HexDigit b) ∧ n = -hexNumber d ∧
      (3 < d.length → d.head? ≠ some 0x30)) ∧
    ∀ text, HexWithoutDigits text → ¬ ∃ decls, DeclaresTables text decls := by
  refine ⟨fun n h => ?_, fun text h => ?_⟩
  · obtain ⟨d, h⟩ := hexText_negative h
    exact ⟨d, by rw [show lit "-" = [0x2D] by decide +kernel]; exact h⟩
  · rintro ⟨decls, ts, ht, _⟩
    rw [bad_tokens h] at ht
    cases ht

/-- C99. If the ranges of the width file are not inverted and end below the largest rune, one negative bound in a line
that goes into some table is enough: the text is no Go source, whatever the emoji file is. -/
theorem C99_width_refused (ea : GoString) (em : Body) (broken p early : Bool) (lines : List GoString)
    (hl : LinesOf p ea lines)
    (hok : ∀ line ∈ lines, ∀ lo hi cls, WidthEntry line lo hi cls → lo ≤ hi ∧ hi < 2 ^ 31 - 1)
    (hneg : ∃ line ∈ lines, ∃ lo hi cls, WidthEntry line lo hi cls ∧ Tabulated line cls ∧ lo < 0) :
    ∃ text, widthSource (some ⟨ea, broken, p⟩) (some em) early = some text ∧ HexWithoutDigits text := by
  apply widthSource_bad
  rcases eastasianText_cases ⟨ea, broken, p⟩ with ⟨cmb, dbl, amb, na, nu, ht⟩ | h
  swap
  · exact h
  exfalso
  have hs : (Body.scan ⟨ea, broken, p⟩).1 = lines := by rw [Body.scan, scanLines_linesOf hl]
  rw [hs, eastasianTables_eq] at ht
  simp only [WidthRanges.mk.injEq, shapeup_runes] at ht
  obtain ⟨line, hline, lo, hi, cls, he, htab, hlt⟩ := hneg
  have key : ∀ (q : GoString → GoString → Bool) (t : List (Nat × Nat)),
      compactRunes (lines.filterMap (pickWidth q)) = signedRanges t → ¬ q line cls = true := by
    intro q t e hq
    refine signed_no_negative (l := t) (e ▸ compactRunes_negative _ ?_ ⟨(lo, hi), ?_, hlt⟩)
    · intro p hp
      obtain ⟨l, hl, hp⟩ := List.mem_filterMap.mp hp
      obtain ⟨c, hw, _⟩ := pickWidth_entry.mp hp
      obtain ⟨s, hr, _⟩ := hw.2
      exact ⟨startsWithRange_bounds hr, hok l hl _ _ _ hw⟩
    · exact List.mem_filterMap.mpr ⟨line, hline, pickWidth_entry.mpr ⟨cls, he, hq⟩⟩
  obtain ⟨t1, t2, t3, t4, t5⟩ := ht
  rcases htab with hc | hc
  · exact key _ _ t1 ((containsText_iff _ _).mpr hc)
  · simp only [List.map_cons, List.map_nil, List.mem_cons, List.not_mem_nil, or_false] at hc
    rcases hc with rfl | rfl | rfl | rfl | rfl
    · exact key _ _ t2 (by simp [qDbl])
    · exact key _ _ t2 (by simp [qDbl])
    · exact key _ _ t3 (by simp [qAmb])
    · exact key _ _ t4 (by simp [qNa])
    · exact key _ _ t5 (by simp [qNu])

theorem emojiTable_lines (intro data : List GoString) (marker : GoString) (hi : ∀ line ∈ intro, ¬ Marker line)
    (hm : Marker marker) : emojiTable (intro ++ marker :: data) = compactRunes (data.filterMap scanEmojiLine) := by
  unfold emojiTable
  rw [shapeup_runes, List.dropWhile_append_of_pos (by
    intro l hl
    simp only [Bool.not_eq_true', Bool.eq_false_iff, ne_eq]
    rw [containsText_iff]
    exact hi l hl), List.dropWhile_cons_of_neg (by
    simp only [Bool.not_eq_true', Bool.eq_false_iff, ne_eq, not_not]
    exact (containsText_iff _ _).mpr hm)]
  rfl

/-- C99. The same for the emoji file after the marker. -/
theorem C99_emoji_refused (ea : Body) (em : GoString) (q early : Bool) (intro data : List GoString) (marker : GoString)
    (hem : LinesOf q em (intro ++ marker :: data)) (hi : ∀ line ∈ intro, ¬ Marker line) (hm : Marker marker)
    (hok : ∀ line ∈ data, ∀ lo hi, EmojiEntry line lo hi → lo ≤ hi ∧ hi < 2 ^ 31 - 1)
    (hneg : ∃ line ∈ data, ∃ lo hi, EmojiEntry line lo hi ∧ lo < 0) :
    ∃ text, widthSource (some ea) (some ⟨em, false, q⟩) early = some text ∧ HexWithoutDigits text := by
  rcases eastasianText_cases ea with ⟨cmb, dbl, amb, na, nu, ht⟩ | h
  swap
  · exact widthSource_bad _ _ _ h
  have hs : (Body.scan ⟨em, false, q⟩).1 = intro ++ marker :: data := by rw [Body.scan, scanLines_linesOf hem]
  obtain ⟨ts, hr⟩ := read_widthHead ea ht
  refine ⟨_, rfl, bad_prepend hr ?_⟩
  rw [emojiText_marker _ _ _ _ _ hs hm (by simp), hs]
  rcases generateText_cases (lit "emoji") (by decide +kernel) (by decide +kernel) (emojiTable (intro ++ marker :: data))
    with ⟨t, e⟩ | h
  swap
  · exact h.2
  exfalso
  rw [emojiTable_lines _ _ _ hi hm] at e
  obtain ⟨line, hline, lo, hi', he, hlt⟩ := hneg
  refine signed_no_negative (l := t) (e ▸ compactRunes_negative _ ?_ ⟨(lo, hi'), ?_, hlt⟩)
  · intro p hp
    obtain ⟨l, hl, hp⟩ := List.mem_filterMap.mp hp
    have hw := (C65_emoji_exact _ _ _).mp hp
    obtain ⟨s, hr, _⟩ := hw.2.2
    exact ⟨startsWithRange_bounds hr, hok l hl _ _ hw⟩
  · exact List.mem_filterMap.mpr ⟨line, hline, (C65_emoji_exact _ _ _).mpr he⟩

/-- C99. Without negative bounds the text declares tables, in whatever order and form the data is. -/
theorem C99_accepted (ea em : GoString) (p q early : Bool) (lines intro data : List GoString) (marker : GoString)
    (hea : LinesOf p ea lines) (hem : LinesOf q em (intro ++ marker :: data)) (hi : ∀ line ∈ intro, ¬ Marker line)
    (hm : Marker marker)
    (hw : ∀ line ∈ lines, ∀ lo hi cls, WidthEntry line lo hi cls → 0 ≤ lo ∧ 0 ≤ hi)
    (he : ∀ line ∈ data, ∀ lo hi, EmojiEntry line lo hi → 0 ≤ lo) :
    ∃ text, widthSource (some ⟨ea, false, p⟩) (some ⟨em, false, q⟩) early = some text ∧ ∃ decls, DeclaresTables text decls ∧
      decls.map Prod.fst = ["combining", "doublewidth", "ambiguous", "narrow", "neutral", "emoji"].map lit := by
  have hs1 : (Body.scan ⟨ea, false, p⟩).1 = lines := by rw [Body.scan, scanLines_linesOf hea]
  have hs2 : (Body.scan ⟨em, false, q⟩).1 = intro ++ marker :: data := by rw [Body.scan, scanLines_linesOf hem]
  have hq : ∀ q : GoString → GoString → Bool, shapeup (lines.filterMap (pickWidth q)) =
      signedRanges (natRanges (shapeup (lines.filterMap (pickWidth q)))) := by
    intro q
    refine (signedRanges_nat ?_).symm
    rw [shapeup_runes]
    apply compactRunes_nonneg
    intro p hp
    obtain ⟨l, hl, hp⟩ := List.mem_filterMap.mp hp
    obtain ⟨c, hc, _⟩ := pickWidth_entry.mp hp
    exact hw l hl _ _ _ hc
  have hemj : emojiTable (intro ++ marker :: data) = signedRanges (natRanges (emojiTable (intro ++ marker :: data))) := by
    refine (signedRanges_nat ?_).symm
    rw [emojiTable_lines _ _ _ hi hm]
    apply compactRunes_nonneg
    intro p hp
    obtain ⟨l, hl, hp⟩ := List.mem_filterMap.mp hp
    have hc := (C65_emoji_exact _ _ _).mp hp
    exact ⟨he l hl _ _ hc, by have := hc.2.1; omega⟩
  have ht : ∃ cmb dbl amb na nu, eastasianTables lines =
      ⟨signedRanges cmb, signedRanges dbl, signedRanges amb, signedRanges na, signedRanges nu⟩ := by
    rw [eastasianTables_eq, hq qCmb, hq qDbl, hq qAmb, hq qNa, hq qNu]
    exact ⟨_, _, _, _, _, rfl⟩
  obtain ⟨cmb, dbl, amb, na, nu, ht⟩ := ht
  refine ⟨_, rfl, _, read_eastasianText ⟨ea, false, p⟩ (em := emojiText ⟨em, false, q⟩ early) (by rw [hs1, ht])
    (by rw [emojiText_marker _ _ _ _ _ hs2 hm (by simp), hs2, hemj]
        exact read_generateText (lit "emoji") (by decide +kernel) (by decide +kernel) _)
    (by simpa only [List.append_nil] using declarations_cons (lit "emoji") _ .nil), rfl⟩

/-- A file with a negative bound, as it is printed. -/
example : scanWidthLine (lit "-5..3;W # x") = some (-5, 3, lit "W") ∧ hexText (-5) = lit "-005" ∧
    generateText (lit "doublewidth") [(-5, 3)] = lit "var doublewidth = table{\n\t{0x-005, 0x0003},\n}\n" := by
  decide +kernel

/-- The conditions of `C99_width_refused` hold for it. -/
example (em : Body) : ∃ text, widthSource (some ⟨lit "# widths\n-5..3;W # x\n4..-7 N\n", false, false⟩) (some em) false = some text ∧
    HexWithoutDigits text ∧ ¬ ∃ decls, DeclaresTables text decls := by
  have hl : LinesOf false (lit "# widths\n-5..3;W # x\n4..-7 N\n") [lit "# widths", lit "-5..3;W # x", lit "4..-7 N"] :=
    linesOf_of_scan (by decide +kernel)
  obtain ⟨text, h1, h2⟩ := C99_width_refused _ em false false false _ hl (by
      intro line hline lo hi cls h
      have h := (C65_width_exact _ _ _ _).mpr h
      simp only [List.mem_cons, List.not_mem_nil, or_false] at hline
      rcases hline with rfl | rfl | rfl
      · rw [show scanWidthLine (lit "# widths") = none by decide +kernel] at h
        cases h
      · rw [show scanWidthLine (lit "-5..3;W # x") = some (-5, 3, lit "W") by decide +kernel] at h
        simp only [Option.some.injEq, Prod.mk.injEq] at h
        obtain ⟨rfl, rfl, _⟩ := h
        decide
      · rw [show scanWidthLine (lit "4..-7 N") = none by decide +kernel] at h
        cases h)
    ⟨lit "-5..3;W # x", by simp, -5, 3, lit "W", (C65_width_exact _ _ _ _).mp (by decide +kernel), .inr (by simp), by decide⟩
  exact ⟨text, h1, h2, C99_not_go.2 text h2⟩

/-- The conditions of `C99_emoji_refused` and `C99_accepted` hold for small files; `-0` is zero. -/
example : (∃ text, widthSource (some ⟨[], false, false⟩) (some ⟨lit "Extended_Pictographic ; No\n-1..100 ;\n", false, false⟩) false =
      some text ∧ HexWithoutDigits text) ∧
    ∃ text, widthSource (some ⟨lit "-0;N", false, true⟩) (some ⟨lit "Extended_Pictographic ; No\n-1..-2 ;\n", false, false⟩) false =
      some text ∧ ∃ decls, DeclaresTables text decls := by
  have hm : Marker (lit "Extended_Pictographic ; No") := List.infix_refl _
  constructor
  · refine C99_emoji_refused _ _ _ _ [] [lit "-1..100 ;"] (lit "Extended_Pictographic ; No")
      (linesOf_of_scan (by decide +kernel)) (by simp) hm ?_ ⟨lit "-1..100 ;", by simp, -1, 0x100,
        (C65_emoji_exact _ _ _).mp (by decide +kernel), by decide⟩
    intro line hline lo hi h
    have h := (C65_emoji_exact _ _ _).mpr h
    rw [List.mem_singleton.mp hline, show scanEmojiLine (lit "-1..100 ;") = some (-1, 0x100) by decide +kernel] at h
    simp only [Option.some.injEq, Prod.mk.injEq] at h
    obtain ⟨rfl, rfl⟩ := h
    decide
  · obtain ⟨text, h, decls, hd, _⟩ := C99_accepted (lit "-0;N") (lit "Extended_Pictographic ; No\n-1..-2 ;\n") true false false
      [lit "-0;N"] [] [lit "-1..-2 ;"] (lit "Extended_Pictographic ; No") (linesOf_of_scan (by decide +kernel))
      (linesOf_of_scan (by decide +kernel)) (by simp) hm (by
        intro line hline lo hi cls h
        have h := (C65_width_exact _ _ _ _).mpr h
        rw [List.mem_singleton.mp hline, show scanWidthLine (lit "-0;N") = some (0, 0, lit "N") by decide +kernel] at h
        simp only [Option.some.injEq, Prod.mk.injEq] at h
        obtain ⟨rfl, rfl, _⟩ := h
        decide) (by
        intro line hline lo hi h
        have h := (C65_emoji_exact _ _ _).mpr h
        rw [List.mem_singleton.mp hline, show scanEmojiLine (lit "-1..-2 ;") = none by decide +kernel] at h
        cases h)
    exact ⟨text, h, decls, hd⟩

/-- C99. The conditions matter: the successor of the largest rune is the smallest, so a range that ends there swallows a
negative one that follows it; and so does a range whose bounds are in the wrong order. -/
theorem C99_hidden :
    (eastasianTables [lit "7FFFFFFF;W", lit "-80000000..5;W"]).dbl = [(0x7FFFFFFF, 5)] ∧
    (eastasianTables [lit "8..-5;W", lit "-4..5;W"]).dbl = [(8, 5)] := by
  decide +kernel

end GoTable
