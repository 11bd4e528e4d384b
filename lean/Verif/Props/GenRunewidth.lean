import Verif.Proofs.GenRunewidth
import Verif.Proofs.ScanLine
import Verif.Proofs.Tables
import Verif.Props.GenProperties
/-!
# C65–C68: the generator of the width tables
-/

namespace GoTable
open Spec

/-! ## C65 -/

/-- C65. A line of the width file of the known form is read as what it says. -/
theorem C65_width_line {line : GoString} {lo hi : Nat} {cls : GoString} (h : WidthLine line lo hi cls) :
    scanWidthLine line = some ((lo : Int), (hi : Int), cls) := scanWidthLine_some h

/-- C65. Comments, empty lines, and lines with a space right after the range are skipped. -/
theorem C65_skipped :
    (∀ line, NoData line → scanWidthLine line = none) ∧
    ∀ range lo hi t, RangeText range lo hi → scanWidthLine (range ++ 0x20 :: t) = none :=
  ⟨fun _ h => scanWidthLine_noData h, fun _ _ _ t h => scanWidthLine_space h t⟩

/-- C65. A line of the emoji file counts unless its range ends below U+00FF. -/
theorem C65_emoji_line {line : GoString} {lo hi : Nat} (h : EmojiLine line lo hi) :
    scanEmojiLine line = if hi < 0xff then none else some ((lo : Int), (hi : Int)) := scanEmojiLine_some h

theorem numberText_of {d : GoString} {n : Nat} (h : d ≠ [] ∧ (∀ b ∈ d, 0x30 ≤ b.toNat ∧ b.toNat ≤ 0x39 ∨
    0x41 ≤ b.toNat ∧ b.toNat ≤ 0x46) ∧ hexNumber d = n ∧ n < 2 ^ 31) : NumberText d n := h

/-- Two lines of the width file. -/
theorem exampleWidthLines :
    WidthLine (lit "0300..036F;A     # Mn   [112] COMBINING GRAVE ACCENT") 0x300 0x36F (lit "A") ∧
    WidthLine (lit "3000;F           # Zs         IDEOGRAPHIC SPACE") 0x3000 0x3000 (lit "F") := by
  refine ⟨⟨lit "0300..036F", lit "     # Mn   [112] COMBINING GRAVE ACCENT", by decide +kernel, .inr ⟨lit "0300",
    lit "036F", by decide +kernel, numberText_of (by decide +kernel), numberText_of (by decide +kernel)⟩,
    by decide +kernel, by decide +kernel, .inr ⟨lit "    # Mn   [112] COMBINING GRAVE ACCENT", by decide +kernel⟩⟩,
    ⟨lit "3000", lit "           # Zs         IDEOGRAPHIC SPACE", by decide +kernel,
    .inl ⟨numberText_of (by decide +kernel), rfl⟩, by decide +kernel, by decide +kernel,
    .inr ⟨lit "          # Zs         IDEOGRAPHIC SPACE", by decide +kernel⟩⟩⟩

/-- The form newer versions of the file have, with spaces before the semicolon, is skipped. -/
example : scanWidthLine (lit "0300..036F     ; A  # Mn   [112] COMBINING GRAVE ACCENT") = none := by
  have := C65_skipped.2 (lit "0300..036F") 0x300 0x36F (lit "    ; A  # Mn   [112] COMBINING GRAVE ACCENT")
    (.inr ⟨lit "0300", lit "036F", by decide +kernel, numberText_of (by decide +kernel),
      numberText_of (by decide +kernel)⟩)
  rw [show lit "0300..036F     ; A  # Mn   [112] COMBINING GRAVE ACCENT" =
    lit "0300..036F" ++ 0x20 :: lit "    ; A  # Mn   [112] COMBINING GRAVE ACCENT" by decide +kernel]
  exact this

/-- C65. Exactly these lines of the width file count: no comment, a range, a semicolon, and a word that white space or
the end of the line follows. White space other than line ends may come before the numbers and the word, and the numbers
may have a sign and digits of either case; nothing may come before `..` and the semicolon. -/
theorem C65_width_exact (line : GoString) (lo hi : Int) (cls : GoString) :
    scanWidthLine line = some (lo, hi, cls) ↔
    line.head? ≠ some 0x23 ∧ ∃ s, StartsWithRange line lo hi ([0x3B] ++ s) ∧ StartsWithWord s cls :=
  scanWidthLine_iff line lo hi cls

/-- C65. Exactly these lines of the emoji file count: no comment, a range that does not end below U+00FF, then white
space or the end of the line. -/
theorem C65_emoji_exact (line : GoString) (lo hi : Int) :
    scanEmojiLine line = some (lo, hi) ↔
    line.head? ≠ some 0x23 ∧ 0xFF ≤ hi ∧ ∃ rest, StartsWithRange line lo hi rest ∧ FieldEnd rest :=
  scanEmojiLine_iff line lo hi

/-- A line with white space of several kinds, a sign and lower case digits. -/
theorem exampleBlankLine :
    StartsWithRange (lit "\t+a9..\u3000ae; N\u00a0#") 0xA9 0xAE ([0x3B] ++ lit " N\u00a0#") ∧
    StartsWithWord (lit " N\u00a0#") (lit "N") := by
  have hd : ∀ d : GoString, d.all isHexAny = true → ∀ b ∈ d, AnyHexDigit b := fun d h b hb =>
    (isHexAny_iff b).mp (List.all_eq_true.mp h b hb)
  have hn : ∀ b : UInt8, isHexAny b = false → ¬ AnyHexDigit b := by
    intro b h h'
    rw [(isHexAny_iff b).mpr h'] at h
    cases h
  refine ⟨.inr ⟨lit "\u3000ae; N\u00a0#", ⟨[0x09], [0x2B], lit "a9", by decide +kernel, ⟨[0x09], by decide +kernel,
    by decide +kernel⟩, by decide +kernel, hd _ (by decide +kernel), ?_, .inl ⟨.inr rfl, by decide +kernel⟩,
    by decide, by decide⟩,
    ⟨lit "\u3000", [], lit "ae", by decide +kernel, ⟨[0x3000], by decide +kernel, by decide +kernel⟩,
    by decide +kernel, hd _ (by decide +kernel), ?_, .inl ⟨.inl rfl, by decide +kernel⟩, by decide, by decide⟩⟩,
    [0x20], lit "N", lit "\u00a0#", by decide +kernel, ⟨[0x20], by decide +kernel, by decide +kernel⟩, by decide +kernel,
    by decide +kernel, .inr ⟨0xA0, by decide, by decide, by decide +kernel⟩, by decide +kernel⟩
  · intro b hb
    rw [List.cons_append, List.head?_cons] at hb
    injection hb with hb
    subst hb
    exact hn _ (by decide)
  · intro b hb
    rw [List.cons_append, List.head?_cons] at hb
    injection hb with hb
    subst hb
    exact hn _ (by decide)

example : scanWidthLine (lit "\t+a9..\u3000ae; N\u00a0#") = some (0xA9, 0xAE, lit "N") :=
  (C65_width_exact _ _ _ _).mpr ⟨by decide +kernel, _, exampleBlankLine.1, exampleBlankLine.2⟩

/-- A line end before the class is not skipped, and the same line with a space counts. -/
example : (∀ s, StartsWithRange (lit "00A9;\nN") 0xA9 0xA9 ([0x3B] ++ s) → ¬ StartsWithWord s (lit "N")) ∧
    ∃ s, StartsWithRange (lit "00A9; N") 0xA9 0xA9 ([0x3B] ++ s) ∧ StartsWithWord s (lit "N") := by
  refine ⟨fun s h1 h2 => ?_, ((C65_width_exact _ _ _ _).mp (by decide +kernel)).2⟩
  have := (C65_width_exact (lit "00A9;\nN") 0xA9 0xA9 (lit "N")).mpr ⟨by decide +kernel, s, h1, h2⟩
  revert this
  decide +kernel

/-- The range of a line of the emoji file ends at white space. -/
example : (∃ rest, StartsWithRange (lit "231A..231B\t; Emoji") 0x231A 0x231B rest ∧ FieldEnd rest) ∧
    ∀ lo hi rest, StartsWithRange (lit "231A..231B; Emoji") lo hi rest → ¬ FieldEnd rest ∨ hi < 0xFF := by
  refine ⟨((C65_emoji_exact _ _ _).mp (by decide +kernel)).2.2, fun lo hi rest h => ?_⟩
  by_cases hhi : hi < 0xFF
  · exact .inr hhi
  refine .inl fun h' => ?_
  have := (C65_emoji_exact (lit "231A..231B; Emoji") lo hi).mpr ⟨by decide +kernel, by omega, rest, h, h'⟩
  rw [show scanEmojiLine (lit "231A..231B; Emoji") = none by decide +kernel] at this
  cases this

/-! ## C66 -/

/-- The lines are comments, empty or data, and the data comes in increasing order of code points. -/
structure WidthFile (lines : List GoString) : Prop where
  form : ∀ line ∈ lines, NoData line ∨ ∃ lo hi cls, WidthLine line lo hi cls ∧ lo ≤ hi
  order : lines.Pairwise fun a b => ∀ lo hi cls lo' hi' cls', WidthLine a lo hi cls → WidthLine b lo' hi' cls' → hi < lo'

/-- The code point is in the range of a line for which `P` holds. -/
def Listed (lines : List GoString) (P : GoString → GoString → Prop) (r : Nat) : Prop :=
  ∃ line ∈ lines, ∃ lo hi cls, WidthLine line lo hi cls ∧ P line cls ∧ lo ≤ r ∧ r ≤ hi

/-- The ranges of the lines picked by `q`. -/
def pickWidth (q : GoString → GoString → Bool) (line : GoString) : Option (Int × Int) :=
  match scanWidthLine line with
  | some (lo, hi, cls) => if q line cls then some (lo, hi) else none
  | none => none

def qCmb (line _cls : GoString) : Bool := containsText line (lit "COMBINING")
def qDbl (_line cls : GoString) : Bool := cls = lit "W" ∨ cls = lit "F"
def qAmb (_line cls : GoString) : Bool := cls = lit "A"
def qNa (_line cls : GoString) : Bool := cls = lit "Na"
def qNu (_line cls : GoString) : Bool := cls = lit "N"

theorem addLine_eq (t : WidthRanges) (line : GoString) :
    t.addLine line = ⟨t.cmb ++ (pickWidth qCmb line).toList, t.dbl ++ (pickWidth qDbl line).toList,
      t.amb ++ (pickWidth qAmb line).toList, t.na ++ (pickWidth qNa line).toList,
      t.nu ++ (pickWidth qNu line).toList⟩ := by
  unfold WidthRanges.addLine pickWidth
  cases scanWidthLine line with
  | none => simp
  | some x =>
    obtain ⟨lo, hi, cls⟩ := x
    have n1 : lit "A" ≠ lit "W" := by decide +kernel
    have n2 : lit "A" ≠ lit "F" := by decide +kernel
    have n3 : lit "Na" ≠ lit "W" := by decide +kernel
    have n4 : lit "Na" ≠ lit "F" := by decide +kernel
    have n5 : lit "N" ≠ lit "W" := by decide +kernel
    have n6 : lit "N" ≠ lit "F" := by decide +kernel
    have n7 : lit "A" ≠ lit "Na" := by decide +kernel
    have n8 : lit "A" ≠ lit "N" := by decide +kernel
    have n9 : lit "Na" ≠ lit "N" := by decide +kernel
    simp only [qCmb, qDbl, qAmb, qNa, qNu, decide_eq_true_eq]
    by_cases h1 : cls = lit "W" ∨ cls = lit "F"
    · have a1 : cls ≠ lit "A" := by rcases h1 with rfl | rfl <;> [exact n1.symm; exact n2.symm]
      have a2 : cls ≠ lit "Na" := by rcases h1 with rfl | rfl <;> [exact n3.symm; exact n4.symm]
      have a3 : cls ≠ lit "N" := by rcases h1 with rfl | rfl <;> [exact n5.symm; exact n6.symm]
      simp only [h1, a1, a2, a3, if_true, if_false]
      split <;> rename_i hc <;> simp [hc]
    · by_cases h2 : cls = lit "A"
      · subst h2
        simp only [h1, n7, n8, if_true, if_false]
        split <;> rename_i hc <;> simp [hc]
      · by_cases h3 : cls = lit "Na"
        · subst h3
          simp only [h1, h2, n9, if_true, if_false]
          split <;> rename_i hc <;> simp [hc]
        · by_cases h4 : cls = lit "N"
          · subst h4
            simp only [h1, h2, h3, if_true, if_false]
            split <;> rename_i hc <;> simp [hc]
          · simp only [h1, h2, h3, h4, if_false]
            split <;> rename_i hc <;> simp [hc]

theorem foldl_addLine (lines : List GoString) (t : WidthRanges) :
    lines.foldl WidthRanges.addLine t = ⟨t.cmb ++ lines.filterMap (pickWidth qCmb),
      t.dbl ++ lines.filterMap (pickWidth qDbl), t.amb ++ lines.filterMap (pickWidth qAmb),
      t.na ++ lines.filterMap (pickWidth qNa), t.nu ++ lines.filterMap (pickWidth qNu)⟩ := by
  induction lines generalizing t with
  | nil => simp
  | cons line lines ih =>
    have : ∀ (f : GoString → Option (Int × Int)), (line :: lines).filterMap f =
        (f line).toList ++ lines.filterMap f := by
      intro f; rw [List.filterMap_cons]; cases f line <;> simp
    rw [List.foldl_cons, ih, addLine_eq]
    simp only [this, List.append_assoc]

theorem widthLine_bounds {line : GoString} {lo hi : Nat} {cls : GoString} (h : WidthLine line lo hi cls) :
    lo < 2 ^ 31 ∧ hi < 2 ^ 31 := by
  obtain ⟨_, _, _, hr, _⟩ := h
  rcases hr with ⟨h, rfl⟩ | ⟨_, _, _, h1, h2⟩
  · exact ⟨h.2.2.2, h.2.2.2⟩
  · exact ⟨h1.2.2.2, h2.2.2.2⟩

theorem pickWidth_some {q : GoString → GoString → Bool} {line : GoString} {p : Int × Int}
    (hl : NoData line ∨ ∃ lo hi cls, WidthLine line lo hi cls ∧ lo ≤ hi) :
    pickWidth q line = some p ↔ ∃ (lo hi : Nat) (cls : GoString), p = ((lo : Int), (hi : Int)) ∧ WidthLine line lo hi cls ∧
      q line cls = true ∧ lo ≤ hi := by
  unfold pickWidth
  rcases hl with hl | ⟨lo, hi, cls, hw, hle⟩
  · rw [scanWidthLine_noData hl]
    constructor
    · intro h; cases h
    · rintro ⟨lo, hi, cls, _, hw, _⟩
      have := scanWidthLine_some hw
      rw [scanWidthLine_noData hl] at this
      cases this
  · have hs := scanWidthLine_some hw
    rw [hs]
    dsimp only
    constructor
    · intro h
      split at h
      · cases h; exact ⟨lo, hi, cls, rfl, hw, by assumption, hle⟩
      · cases h
    · rintro ⟨lo', hi', cls', rfl, hw', hq, _⟩
      have := scanWidthLine_some hw'
      rw [hs] at this
      simp only [Option.some.injEq, Prod.mk.injEq] at this
      obtain ⟨h1, h2, rfl⟩ := this
      rw [if_pos hq, h1, h2]

/-- The same with natural numbers. -/
def pickNat (q : GoString → GoString → Bool) (line : GoString) : Option (Nat × Nat) :=
  (pickWidth q line).map fun p => (p.1.toNat, p.2.toNat)

theorem pickNat_some {q : GoString → GoString → Bool} {line : GoString} {p : Nat × Nat}
    (hl : NoData line ∨ ∃ lo hi cls, WidthLine line lo hi cls ∧ lo ≤ hi) :
    pickNat q line = some p ↔ ∃ cls, WidthLine line p.1 p.2 cls ∧ q line cls = true ∧ p.1 ≤ p.2 := by
  unfold pickNat
  simp only [Option.map_eq_some_iff, pickWidth_some hl]
  constructor
  · rintro ⟨_, ⟨lo, hi, cls, rfl, h⟩, rfl⟩
    exact ⟨cls, by simpa using h⟩
  · rintro ⟨cls, h⟩
    exact ⟨_, ⟨p.1, p.2, cls, rfl, h⟩, by simp⟩

theorem picked_signed (q : GoString → GoString → Bool) (lines : List GoString)
    (h : ∀ line ∈ lines, NoData line ∨ ∃ lo hi cls, WidthLine line lo hi cls ∧ lo ≤ hi) :
    lines.filterMap (pickWidth q) = signedRanges (lines.filterMap (pickNat q)) := by
  have e : lines.filterMap (pickNat q) = natRanges (lines.filterMap (pickWidth q)) := by
    unfold natRanges
    rw [List.map_filterMap]
    rfl
  rw [e, signedRanges_nat]
  intro p hp
  obtain ⟨line, hl, hp⟩ := List.mem_filterMap.mp hp
  obtain ⟨lo, hi, _, rfl, _⟩ := (pickWidth_some (h line hl)).mp hp
  simp

theorem sortedRanges_of_pairwise {l : List (Nat × Nat)} (h : l.Pairwise fun a b => a.2 < b.1) : SortedRanges l := by
  induction l with
  | nil => trivial
  | cons a l ih =>
    cases l with
    | nil => trivial
    | cons b l =>
      rw [List.pairwise_cons] at h
      exact ⟨h.1 b (by simp), ih h.2⟩

theorem sortedIntervals_of {l : List (Nat × Nat)} (h1 : NonEmptyRanges l) (h2 : SortedRanges l) :
    SortedIntervals l := by
  refine ⟨h1, ?_⟩
  induction l with
  | nil => simp
  | cons a l ih =>
    rw [List.pairwise_cons]
    exact ⟨fun b hb => sorted_above h1 h2 b hb, ih (fun p hp => h1 p (by simp [hp])) (sorted_tail h2)⟩

/-- The table of the lines picked by `q`. -/
def widthTableOf (q : GoString → GoString → Bool) (lines : List GoString) : List (Nat × Nat) :=
  compact (lines.filterMap (pickNat q))

theorem widthTable (lines : List GoString) (h : WidthFile lines) (q : GoString → GoString → Bool)
    (P : GoString → GoString → Prop) (hq : ∀ l c, q l c = true ↔ P l c) :
    shapeup (lines.filterMap (pickWidth q)) = signedRanges (widthTableOf q lines) ∧
    (∀ r, inTable r (widthTableOf q lines) = true ↔ Listed lines P r) ∧ NoneAdjacent (widthTableOf q lines) := by
  have hne : NonEmptyRanges (lines.filterMap (pickNat q)) := by
    intro p hp
    obtain ⟨line, hl, hp⟩ := List.mem_filterMap.mp hp
    obtain ⟨_, _, _, h3⟩ := (pickNat_some (h.form line hl)).mp hp
    exact h3
  have hso : SortedRanges (lines.filterMap (pickNat q)) := by
    apply sortedRanges_of_pairwise
    rw [List.pairwise_filterMap]
    refine List.Pairwise.imp_of_mem ?_ h.order
    intro a b ha hb hab p hp p' hp'
    obtain ⟨c, w, _, _⟩ := (pickNat_some (h.form a ha)).mp hp
    obtain ⟨c', w', _, _⟩ := (pickNat_some (h.form b hb)).mp hp'
    exact hab _ _ _ _ _ _ w w'
  have hbd : ∀ p ∈ lines.filterMap (pickNat q), p.1 < 2 ^ 31 ∧ p.2 < 2 ^ 31 := by
    intro p hp
    obtain ⟨line, hl, hp⟩ := List.mem_filterMap.mp hp
    obtain ⟨_, w, _⟩ := (pickNat_some (h.form line hl)).mp hp
    exact widthLine_bounds w
  unfold widthTableOf
  rw [picked_signed q lines h.form, shapeup_eq _ hbd]
  refine ⟨rfl, fun r => ?_, compact_noneAdjacent _⟩
  rw [inTable_correct _ (sortedIntervals_of (compact_nonEmpty _ hne) (compact_sorted _ hso))]
  have hw := compact_within _ hne r
  refine Iff.trans ?_ (hw.trans ?_)
  · rfl
  · constructor
    · rintro ⟨p, hp, h1, h2⟩
      obtain ⟨line, hl, hp⟩ := List.mem_filterMap.mp hp
      obtain ⟨cls, w, hc, _⟩ := (pickNat_some (h.form line hl)).mp hp
      exact ⟨line, hl, p.1, p.2, cls, w, (hq _ _).mp hc, h1, h2⟩
    · rintro ⟨line, hl, lo, hi, cls, w, hP, h1, h2⟩
      exact ⟨(lo, hi), List.mem_filterMap.mpr ⟨line, hl, (pickNat_some (h.form line hl)).mpr
        ⟨cls, w, (hq _ _).mpr hP, by show lo ≤ hi; omega⟩⟩, h1, h2⟩

theorem eastasianTables_eq (lines : List GoString) : eastasianTables lines =
    ⟨shapeup (lines.filterMap (pickWidth qCmb)), shapeup (lines.filterMap (pickWidth qDbl)),
      shapeup (lines.filterMap (pickWidth qAmb)), shapeup (lines.filterMap (pickWidth qNa)),
      shapeup (lines.filterMap (pickWidth qNu))⟩ := by
  unfold eastasianTables
  rw [foldl_addLine]
  simp

/-- C66. From a file in order, each width table finds exactly the code points the file lists under its classes (for
`combining`: in lines that contain that word), and has no two ranges that could be one. -/
theorem C66_width_tables (lines : List GoString) (h : WidthFile lines) :
    ∃ cmb dbl amb na nu, eastasianTables lines =
      ⟨signedRanges cmb, signedRanges dbl, signedRanges amb, signedRanges na, signedRanges nu⟩ ∧
    (∀ r, inTable r cmb = true ↔ Listed lines (fun line _ => lit "COMBINING" <:+: line) r) ∧
    (∀ r, inTable r dbl = true ↔ Listed lines (fun _ cls => cls = lit "W" ∨ cls = lit "F") r) ∧
    (∀ r, inTable r amb = true ↔ Listed lines (fun _ cls => cls = lit "A") r) ∧
    (∀ r, inTable r na = true ↔ Listed lines (fun _ cls => cls = lit "Na") r) ∧
    (∀ r, inTable r nu = true ↔ Listed lines (fun _ cls => cls = lit "N") r) ∧
    ∀ t ∈ [cmb, dbl, amb, na, nu], NoneAdjacent t := by
  have t1 := widthTable lines h qCmb _ fun l _ => containsText_iff l (lit "COMBINING")
  have t2 := widthTable lines h qDbl (fun _ cls => cls = lit "W" ∨ cls = lit "F") fun _ _ => by simp [qDbl]
  have t3 := widthTable lines h qAmb (fun _ cls => cls = lit "A") fun _ _ => by simp [qAmb]
  have t4 := widthTable lines h qNa (fun _ cls => cls = lit "Na") fun _ _ => by simp [qNa]
  have t5 := widthTable lines h qNu (fun _ cls => cls = lit "N") fun _ _ => by simp [qNu]
  refine ⟨_, _, _, _, _, ?_, t1.2.1, t2.2.1, t3.2.1, t4.2.1, t5.2.1, ?_⟩
  · rw [eastasianTables_eq, t1.1, t2.1, t3.1, t4.1, t5.1]
  · simp only [List.mem_cons, List.not_mem_nil, or_false]
    rintro t (rfl | rfl | rfl | rfl | rfl) <;> [exact t1.2.2; exact t2.2.2; exact t3.2.2; exact t4.2.2; exact t5.2.2]

/-- Two data lines and two without data. -/
theorem exampleWidthFile : WidthFile [lit "# EastAsianWidth-13.0.0.txt", [],
    lit "0300..036F;A     # Mn   [112] COMBINING GRAVE ACCENT", lit "3000;F           # Zs         IDEOGRAPHIC SPACE"] := by
  obtain ⟨w1, w2⟩ := exampleWidthLines
  have n1 : NoData (lit "# EastAsianWidth-13.0.0.txt") := .inr (by decide +kernel)
  have n2 : NoData [] := .inl rfl
  have no : ∀ {l}, NoData l → ∀ lo hi cls, ¬ WidthLine l lo hi cls := by
    intro l hl lo hi cls hw
    have := scanWidthLine_some hw
    rw [scanWidthLine_noData hl] at this
    cases this
  constructor
  · simp only [List.mem_cons, List.not_mem_nil, or_false]
    rintro l (rfl | rfl | rfl | rfl)
    · exact .inl n1
    · exact .inl n2
    · exact .inr ⟨_, _, _, w1, by decide⟩
    · exact .inr ⟨_, _, _, w2, by decide⟩
  · simp only [List.pairwise_cons, List.mem_cons, List.not_mem_nil, or_false]
    refine ⟨fun b _ lo hi cls lo' hi' cls' h _ => absurd h (no n1 _ _ _),
      fun b _ lo hi cls lo' hi' cls' h _ => absurd h (no n2 _ _ _), ?_, ?_, List.Pairwise.nil⟩
    · rintro b rfl lo hi cls lo' hi' cls' h h'
      have e1 := scanWidthLine_some h
      have e2 := scanWidthLine_some h'
      rw [scanWidthLine_some w1] at e1
      rw [scanWidthLine_some w2] at e2
      cases e1; cases e2; decide
    · rintro b hb
      cases hb

example : ∃ cmb, (eastasianTables [lit "# EastAsianWidth-13.0.0.txt", [],
    lit "0300..036F;A     # Mn   [112] COMBINING GRAVE ACCENT",
    lit "3000;F           # Zs         IDEOGRAPHIC SPACE"]).cmb = signedRanges cmb ∧ inTable 0x301 cmb = true := by
  obtain ⟨cmb, _, _, _, _, e, h, _⟩ := C66_width_tables _ exampleWidthFile
  refine ⟨cmb, by rw [e], (h _).mpr ⟨_, by simp, 0x300, 0x36F, lit "A", exampleWidthLines.1,
    (containsText_iff _ _).mp (by decide +kernel),
    by decide, by decide⟩⟩

/-! ## C67 -/

/-- The line after which the emoji file's data is read. -/
def Marker (line : GoString) : Prop := lit "Extended_Pictographic ; No" <:+: line

/-- C67. From a file whose data after the first marker is in order, the emoji table finds exactly the code points of the
ranges listed there that do not end below U+00FF. -/
theorem C67_emoji_table (intro data : List GoString) (marker : GoString) (hi : ∀ line ∈ intro, ¬ Marker line)
    (hm : Marker marker) (form : ∀ line ∈ data, NoData line ∨ ∃ lo hi, EmojiLine line lo hi ∧ lo ≤ hi)
    (order : data.Pairwise fun a b => ∀ lo hi lo' hi', EmojiLine a lo hi → EmojiLine b lo' hi' → hi < lo') :
    ∃ t, emojiTable (intro ++ marker :: data) = signedRanges t ∧
    (∀ r, inTable r t = true ↔ ∃ line ∈ data, ∃ lo hi, EmojiLine line lo hi ∧ 0xFF ≤ hi ∧ lo ≤ r ∧ r ≤ hi) ∧
    NoneAdjacent t := by
  have hint : ∀ line, (NoData line ∨ ∃ lo hi, EmojiLine line lo hi ∧ lo ≤ hi) → ∀ p : Int × Int,
      scanEmojiLine line = some p → 0 ≤ p.1 ∧ 0 ≤ p.2 := by
    intro line hl p hp
    rcases hl with hl | ⟨lo, hi, hw, hle⟩
    · rw [scanEmojiLine_noData hl] at hp; cases hp
    · rw [scanEmojiLine_some hw] at hp
      split at hp
      · cases hp
      · cases hp; simp
  let scanNat : GoString → Option (Nat × Nat) := fun line =>
    (scanEmojiLine line).map fun p => (p.1.toNat, p.2.toNat)
  have hscan : ∀ line, (NoData line ∨ ∃ lo hi, EmojiLine line lo hi ∧ lo ≤ hi) → ∀ p : Nat × Nat,
      scanNat line = some p ↔ EmojiLine line p.1 p.2 ∧ 0xFF ≤ p.2 ∧ p.1 ≤ p.2 := by
    intro line hl p
    show (scanEmojiLine line).map _ = some p ↔ _
    rcases hl with hl | ⟨lo, hi, hw, hle⟩
    · rw [scanEmojiLine_noData hl]
      constructor
      · intro h; cases h
      · rintro ⟨hw, hge, _⟩
        have := scanEmojiLine_some hw
        rw [scanEmojiLine_noData hl, if_neg (by omega)] at this
        cases this
    · rw [scanEmojiLine_some hw]
      constructor
      · intro h
        split at h
        · cases h
        · cases h; exact ⟨by simpa using hw, by simp; omega, by simpa using hle⟩
      · rintro ⟨hw', hge, _⟩
        obtain ⟨rfl, rfl⟩ := emojiLine_unique hw hw'
        rw [if_neg (by omega)]
        simp
  have hsigned : data.filterMap scanEmojiLine = signedRanges (data.filterMap scanNat) := by
    have e : data.filterMap scanNat = natRanges (data.filterMap scanEmojiLine) := by
      unfold natRanges
      rw [List.map_filterMap]
    rw [e, signedRanges_nat]
    intro p hp
    obtain ⟨line, hl, hp⟩ := List.mem_filterMap.mp hp
    exact hint line (form line hl) p hp
  have hskip : ((intro ++ marker :: data).dropWhile fun l => !containsText l (lit "Extended_Pictographic ; No")).drop 1
      = data := by
    rw [List.dropWhile_append_of_pos, List.dropWhile_cons_of_neg]
    · rfl
    · rw [(containsText_iff _ _).mpr hm]; simp
    · intro l hl
      have := mt (containsText_iff l _).mp (hi l hl)
      simpa using this
  have hne : NonEmptyRanges (data.filterMap scanNat) := by
    intro p hp
    obtain ⟨line, hl, hp⟩ := List.mem_filterMap.mp hp
    exact ((hscan line (form line hl) p).mp hp).2.2
  have hso : SortedRanges (data.filterMap scanNat) := by
    apply sortedRanges_of_pairwise
    rw [List.pairwise_filterMap]
    refine List.Pairwise.imp_of_mem ?_ order
    intro a b ha hb hab p hp p' hp'
    exact hab _ _ _ _ ((hscan a (form a ha) p).mp hp).1 ((hscan b (form b hb) p').mp hp').1
  have hbd : ∀ p ∈ data.filterMap scanNat, p.1 < 2 ^ 31 ∧ p.2 < 2 ^ 31 := by
    intro p hp
    obtain ⟨line, hl, hp⟩ := List.mem_filterMap.mp hp
    obtain ⟨_, _, _, hr, _⟩ := ((hscan line (form line hl) p).mp hp).1
    rcases hr with ⟨h, e⟩ | ⟨_, _, _, h1, h2⟩
    · rw [e]; exact ⟨h.2.2.2, h.2.2.2⟩
    · exact ⟨h1.2.2.2, h2.2.2.2⟩
  unfold emojiTable
  rw [hskip, hsigned, shapeup_eq _ hbd]
  refine ⟨_, rfl, fun r => ?_, compact_noneAdjacent _⟩
  rw [inTable_correct _ (sortedIntervals_of (compact_nonEmpty _ hne) (compact_sorted _ hso))]
  refine Iff.trans ?_ ((compact_within _ hne r).trans ?_)
  · rfl
  · constructor
    · rintro ⟨p, hp, h1, h2⟩
      obtain ⟨line, hl, hp⟩ := List.mem_filterMap.mp hp
      obtain ⟨w, hge, _⟩ := (hscan line (form line hl) p).mp hp
      exact ⟨line, hl, p.1, p.2, w, hge, h1, h2⟩
    · rintro ⟨line, hl, lo, hi, w, hge, h1, h2⟩
      exact ⟨(lo, hi), List.mem_filterMap.mpr ⟨line, hl, (hscan line (form line hl) (lo, hi)).mpr
        ⟨w, hge, by show lo ≤ hi; omega⟩⟩, h1, h2⟩

/-- C67. Without a marker the table is empty, whatever the file says. -/
theorem C67_no_marker (lines : List GoString) (h : ∀ line ∈ lines, ¬ Marker line) : emojiTable lines = [] := by
  have : lines.dropWhile (fun l => !containsText l (lit "Extended_Pictographic ; No")) = [] := by
    induction lines with
    | nil => rfl
    | cons l t ih =>
      rw [List.dropWhile_cons_of_pos]
      · exact ih fun x hx => h x (by simp [hx])
      · have := mt (containsText_iff l _).mp (h l (by simp))
        simpa using this
  unfold emojiTable
  rw [this, shapeup_runes]
  simp [compactRunes]

theorem exampleEmojiLines : EmojiLine (lit "00A9          ; Extended_Pictographic# E0.6   [1] (©️)") 0xA9 0xA9 ∧
    EmojiLine (lit "2194..2199    ; Extended_Pictographic# E0.6   [6] (↔️..↙️)") 0x2194 0x2199 := by
  refine ⟨⟨lit "00A9", (lit "00A9          ; Extended_Pictographic# E0.6   [1] (©️)").drop 4, by decide +kernel,
    .inl ⟨numberText_of (by decide +kernel), rfl⟩,
    .inr ⟨(lit "00A9          ; Extended_Pictographic# E0.6   [1] (©️)").drop 5, by decide +kernel⟩⟩,
    ⟨lit "2194..2199", (lit "2194..2199    ; Extended_Pictographic# E0.6   [6] (↔️..↙️)").drop 10, by decide +kernel,
    .inr ⟨lit "2194", lit "2199", by decide +kernel, numberText_of (by decide +kernel), numberText_of (by decide +kernel)⟩,
    .inr ⟨(lit "2194..2199    ; Extended_Pictographic# E0.6   [6] (↔️..↙️)").drop 11, by decide +kernel⟩⟩⟩

/-- U+00A9 is listed but left out, U+2195 is in. -/
example : ∃ t, emojiTable ([lit "# Emoji"] ++ lit "# All omitted code points have Extended_Pictographic ; No" ::
      [lit "00A9          ; Extended_Pictographic# E0.6   [1] (©️)",
      lit "2194..2199    ; Extended_Pictographic# E0.6   [6] (↔️..↙️)"]) = signedRanges t ∧
    inTable 0xA9 t = false ∧ inTable 0x2195 t = true := by
  obtain ⟨w1, w2⟩ := exampleEmojiLines
  obtain ⟨t, e, key, _⟩ := C67_emoji_table [lit "# Emoji"] [lit "00A9          ; Extended_Pictographic# E0.6   [1] (©️)",
      lit "2194..2199    ; Extended_Pictographic# E0.6   [6] (↔️..↙️)"]
    (lit "# All omitted code points have Extended_Pictographic ; No") (by
      intro l hl
      rw [List.mem_singleton] at hl
      subst hl
      unfold Marker
      rw [← containsText_iff]; decide +kernel) (by unfold Marker; rw [← containsText_iff]; decide +kernel) (by
      simp only [List.mem_cons, List.not_mem_nil, or_false]
      rintro l (rfl | rfl)
      · exact .inr ⟨_, _, w1, by decide⟩
      · exact .inr ⟨_, _, w2, by decide⟩) (by
      simp only [List.pairwise_cons, List.mem_cons, List.not_mem_nil, or_false]
      refine ⟨?_, fun _ h => h.elim, List.Pairwise.nil⟩
      rintro b rfl lo hi lo' hi' h h'
      obtain ⟨rfl, rfl⟩ := emojiLine_unique w1 h
      obtain ⟨rfl, rfl⟩ := emojiLine_unique w2 h'
      decide)
  refine ⟨t, e, ?_, ?_⟩
  · rw [← Bool.not_eq_true, key]
    rintro ⟨l, hl, lo, hi, w, h1, h2, h3⟩
    simp only [List.mem_cons, List.not_mem_nil, or_false] at hl
    rcases hl with rfl | rfl
    · obtain ⟨rfl, rfl⟩ := emojiLine_unique w1 w
      omega
    · obtain ⟨rfl, rfl⟩ := emojiLine_unique w2 w
      omega
  · rw [key]
    exact ⟨_, by simp, _, _, w2, by decide, by decide, by decide⟩

/-! ## C68 -/

/-- C68. Numbers are printed with at least four upper case hexadecimal digits that denote them, more only if the first
is not 0. -/
theorem C68_number (n : Nat) :
    4 ≤ (hexText (n : Int)).length ∧ (∀ b ∈ hexText n, HexDigit b) ∧ hexNumber (hexText n) = n ∧
    (4 < (hexText n).length → (hexText n).head? ≠ some 0x30) :=
  ⟨(hexText_spec n).1, (hexText_spec n).2.1, (hexText_spec n).2.2, hexText_head n⟩

def noBlank (b : UInt8) : Bool := b != 0x20 && b != 0x09 && b != 0x0A

theorem noBlank_of_hex {b : UInt8} (h : HexDigit b) : noBlank b = true := by
  have := HexDigit.range h
  simp only [noBlank, Bool.and_eq_true, bne_iff_ne]
  refine ⟨⟨?_, ?_⟩, ?_⟩ <;> (rintro rfl; simp at this)

theorem filter_hexText (n : Nat) : (hexText n).filter noBlank = hexText n := by
  rw [List.filter_eq_self]
  exact fun b hb => noBlank_of_hex ((hexText_spec n).2.1 b hb)

theorem entries_print (arr : List (Nat × Nat)) :
    Entries (arr.flatMap fun e => [0x7B, 0x30, 0x78] ++ hexText e.1 ++ [0x2C, 0x30, 0x78] ++ hexText e.2 ++ [0x7D, 0x2C])
      arr := by
  induction arr with
  | nil => exact Entries.nil
  | cons e arr ih =>
    obtain ⟨lo, hi⟩ := e
    have hne : ∀ n : Nat, hexText n ≠ [] := by
      intro n hn
      have := (hexText_spec n).1
      rw [hn] at this
      simp at this
    rw [List.flatMap_cons]
    exact Entries.cons _ _ _ lo hi arr ⟨hne lo, (hexText_spec lo).2.1⟩ ⟨hne hi, (hexText_spec hi).2.1⟩
      (hexText_spec lo).2.2 (hexText_spec hi).2.2 ih

/-- C68. The text printed for a table is Go source for that table, for any name and any ranges. -/
theorem C68_source (v : GoString) (arr : List (Nat × Nat)) : TableSource (generateText v (signedRanges arr)) v arr := by
  have e1 : lit " = table{\n\t" = lit " = table{" ++ [0x0A, 0x09] := by decide +kernel
  have e2 : lit "\n}\n" = [0x0A] ++ lit "}\n" := by decide +kernel
  have e3 : lit "{0x" = [0x7B, 0x30, 0x78] := by decide +kernel
  have e4 : lit ", 0x" = [0x2C, 0x20, 0x30, 0x78] := by decide +kernel
  have e5 : lit "}," = [0x7D, 0x2C] := by decide +kernel
  have e6 : lit "\n\t" = [0x0A, 0x09] := by decide +kernel
  have e7 : lit " " = [0x20] := by decide +kernel
  have hsep : ∀ i, (if i + 1 < arr.length then if i % 3 = 2 then lit "\n\t" else lit " " else []).filter noBlank = [] := by
    intro i
    rw [e6, e7]
    split
    · split <;> decide
    · rfl
  refine ⟨[0x0A, 0x09] ++ ((List.range arr.length).flatMap fun i =>
    let e := arr.getD i (0, 0)
    lit "{0x" ++ hexText e.1 ++ lit ", 0x" ++ hexText e.2 ++ lit "}," ++
      (if i + 1 < arr.length then if i % 3 = 2 then lit "\n\t" else lit " " else [])) ++ [0x0A],
    (arr.flatMap fun e => [0x7B, 0x30, 0x78] ++ hexText e.1 ++ [0x2C, 0x30, 0x78] ++ hexText e.2 ++ [0x7D, 0x2C]),
    ?_, ?_, ?_⟩
  · rw [generateText_signed, e1, e2]
    simp only [List.append_assoc]
  · show List.filter noBlank _ = _
    rw [List.filter_append, List.filter_append, List.filter_flatMap]
    have h1 : ∀ i, ((let e := arr.getD i (0, 0)
        lit "{0x" ++ hexText e.1 ++ lit ", 0x" ++ hexText e.2 ++ lit "}," ++
          (if i + 1 < arr.length then if i % 3 = 2 then lit "\n\t" else lit " " else [])).filter noBlank) =
        (fun e : Nat × Nat => [0x7B, 0x30, 0x78] ++ hexText e.1 ++ [0x2C, 0x30, 0x78] ++ hexText e.2 ++ [0x7D, 0x2C])
          (arr.getD i (0, 0)) := by
      intro i
      dsimp only
      rw [List.filter_append, hsep, e3, e4, e5]
      simp only [List.filter_append, filter_hexText, List.append_nil]
      rfl
    simp only [h1]
    have h2 : arr = (List.range arr.length).map fun i => arr.getD i (0, 0) := by
      apply List.ext_getElem
      · simp
      · intro i h _
        simp [List.getD_eq_getElem?_getD, h]
    conv_rhs => rw [h2, List.flatMap_map]
    simp [noBlank]
  · exact entries_print arr

theorem split_digits {d d' s s' : GoString} (hd : ∀ b ∈ d, HexDigit b) (hd' : ∀ b ∈ d', HexDigit b) (c : UInt8)
    (hc : isHexAny c = false) (h : d ++ c :: s = d' ++ c :: s') : d = d' ∧ s = s' := by
  have key : ∀ (d s : GoString), (∀ b ∈ d, HexDigit b) → (d ++ c :: s).takeWhile isHexAny = d := by
    intro d s hd
    rw [List.takeWhile_append_of_pos (fun x hx => HexDigit_any (hd x hx)), List.takeWhile_cons_of_neg (by simp [hc])]
    simp
  have e := key d s hd
  rw [h, key d' s' hd'] at e
  subst e
  have := List.append_cancel_left h
  cases this
  exact ⟨rfl, rfl⟩

theorem entries_unique {text : GoString} {arr arr' : List (Nat × Nat)} (h : Entries text arr) (h' : Entries text arr') :
    arr = arr' := by
  induction h generalizing arr' with
  | nil =>
    generalize hx : ([] : GoString) = x at h'
    cases h' with
    | nil => rfl
    | cons => simp at hx
  | cons d e text lo hi arr hd he hlo hhi _ ih =>
    generalize hx : [0x7B, 0x30, 0x78] ++ d ++ [0x2C, 0x30, 0x78] ++ e ++ [0x7D, 0x2C] ++ text = x at h'
    cases h' with
    | nil => simp at hx
    | cons d' e' text' lo' hi' arr' hd' he' hlo' hhi' h' =>
      simp only [List.append_assoc, List.cons_append, List.nil_append, List.cons.injEq, true_and] at hx
      obtain ⟨h1, h2⟩ := split_digits hd.2 hd'.2 0x2C (by decide) hx
      simp only [List.cons.injEq, true_and] at h2
      obtain ⟨h3, h4⟩ := split_digits he.2 he'.2 0x7D (by decide) h2
      simp only [List.cons.injEq, true_and] at h4
      subst h1 h3 h4 hlo hhi hlo' hhi'
      rw [ih h']

/-- C68. Source text denotes one table only. -/
theorem C68_unique (text v : GoString) (arr arr' : List (Nat × Nat)) (h : TableSource text v arr)
    (h' : TableSource text v arr') : arr = arr' := by
  obtain ⟨b, e, ht, hb, he⟩ := h
  obtain ⟨b', e', ht', hb', he'⟩ := h'
  rw [ht] at ht'
  simp only [List.append_assoc] at ht'
  have h1 := List.append_cancel_left (List.append_cancel_left (List.append_cancel_left ht'))
  have h2 := List.append_cancel_right h1
  subst h2
  rw [hb] at hb'
  subst hb'
  exact entries_unique he he'

/-- Four ranges, so that there is a line break. -/
example : generateText (lit "narrow") [(0x20, 0x7E), (0xA2, 0xA3), (0xA5, 0xA6), (0x1F300, 0x10FFFF)] =
    lit "var narrow = table{\n\t{0x0020, 0x007E}, {0x00A2, 0x00A3}, {0x00A5, 0x00A6},\n\t{0x1F300, 0x10FFFF},\n}\n" := by
  decide +kernel

end GoTable
