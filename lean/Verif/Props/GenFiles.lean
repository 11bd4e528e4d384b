import Verif.Proofs.GenFiles
/-!
# C93–C95: the generators, from the bytes of the downloads on
-/

namespace GoTable
open Spec

/-! ## C93 -/

theorem emojiText_marker (b : Body) (early : Bool) (intro data : List GoString) (marker : GoString)
    (hl : b.scan.1 = intro ++ marker :: data) (hm : Marker marker) (h : b.broken = true → early = false) :
    emojiText b early = generateText (lit "emoji") (emojiTable b.scan.1) := by
  unfold emojiText
  split
  · rename_i hd
    have : marker ∈ b.scan.1 := by rw [hl]; simp
    have := dropWhile_nil hd marker this
    rw [(containsText_iff _ _).mpr hm] at this
    simp at this
  · rw [if_neg]
    intro hc
    simp only [Bool.and_eq_true] at hc
    rw [h hc.1] at hc
    simp at hc

/-- C93. If both files are read to their ends and their data is in order, the generator writes Go source that declares
the six tables in this order, each once and nothing else, and these find exactly the code points the files list. -/
theorem C93_source (ea em : GoString) (p q early : Bool) (lines intro data : List GoString) (marker : GoString)
    (hea : LinesOf p ea lines) (hw : WidthFile lines) (hem : LinesOf q em (intro ++ marker :: data))
    (hi : ∀ line ∈ intro, ¬ Marker line) (hm : Marker marker)
    (form : ∀ line ∈ data, NoData line ∨ ∃ lo hi, EmojiLine line lo hi ∧ lo ≤ hi)
    (order : data.Pairwise fun a b => ∀ lo hi lo' hi', EmojiLine a lo hi → EmojiLine b lo' hi' → hi < lo') :
    ∃ text cmb dbl amb na nu emj, widthSource (some ⟨ea, false, p⟩) (some ⟨em, false, q⟩) early = some text ∧
      DeclaresTables text [(lit "combining", cmb), (lit "doublewidth", dbl), (lit "ambiguous", amb), (lit "narrow", na),
        (lit "neutral", nu), (lit "emoji", emj)] ∧
      (∀ r, inTable r cmb = true ↔ Listed lines (fun line _ => lit "COMBINING" <:+: line) r) ∧
      (∀ r, inTable r dbl = true ↔ Listed lines (fun _ cls => cls = lit "W" ∨ cls = lit "F") r) ∧
      (∀ r, inTable r amb = true ↔ Listed lines (fun _ cls => cls = lit "A") r) ∧
      (∀ r, inTable r na = true ↔ Listed lines (fun _ cls => cls = lit "Na") r) ∧
      (∀ r, inTable r nu = true ↔ Listed lines (fun _ cls => cls = lit "N") r) ∧
      (∀ r, inTable r emj = true ↔ ∃ line ∈ data, ∃ lo hi, EmojiLine line lo hi ∧ 0xFF ≤ hi ∧ lo ≤ r ∧ r ≤ hi) := by
  obtain ⟨cmb, dbl, amb, na, nu, ht, w1, w2, w3, w4, w5, _⟩ := C66_width_tables lines hw
  obtain ⟨emj, he, w6, _⟩ := C67_emoji_table intro data marker hi hm form order
  have hs1 : (Body.scan ⟨ea, false, p⟩).1 = lines := by rw [Body.scan, scanLines_linesOf hea]
  have hs2 : (Body.scan ⟨em, false, q⟩).1 = intro ++ marker :: data := by rw [Body.scan, scanLines_linesOf hem]
  refine ⟨_, _, _, _, _, _, _, rfl, ?_, w1, w2, w3, w4, w5, w6⟩
  exact read_eastasianText ⟨ea, false, p⟩ (em := emojiText ⟨em, false, q⟩ early) (by rw [hs1, ht])
    (by rw [emojiText_marker _ _ _ _ _ hs2 hm (by simp), hs2, he]
        exact read_generateText (lit "emoji") (by decide +kernel) (by decide +kernel) _)
    (by simpa only [List.append_nil] using declarations_cons (lit "emoji") _ .nil)

/-- Small files. -/
def exampleWidthBytes : GoString :=
  lit "# EastAsianWidth-13.0.0.txt\r\n\n0300..036F;A     # Mn   [112] COMBINING GRAVE ACCENT\n3000;F           # Zs         IDEOGRAPHIC SPACE"
@[inherit_doc exampleWidthBytes]
def exampleEmojiBytes : GoString :=
  lit "# Emoji\n# All omitted code points have Extended_Pictographic ; No\n00A9          ; Extended_Pictographic# E0.6   [1] (©️)\n2194..2199    ; Extended_Pictographic# E0.6   [6] (↔️..↙️)\n"

/- What is written for these files; all conditions of `C93_source` hold. -/
example : widthSource (some ⟨exampleWidthBytes, false, false⟩) (some ⟨exampleEmojiBytes, false, true⟩) false =
      some (["// Code generated by script/generate.go. DO NOT EDIT.\n\npackage runewidth\n\n",
        "var combining = table{\n\t{0x0300, 0x036F},\n}\n\n", "var doublewidth = table{\n\t{0x3000, 0x3000},\n}\n\n",
        "var ambiguous = table{\n\t{0x0300, 0x036F},\n}\n", "var narrow = table{\n\t\n}\n\n",
        "var neutral = table{\n\t\n}\n\n", "var emoji = table{\n\t{0x2194, 0x2199},\n}\n"].map lit).flatten ∧
    ∃ emj, ∀ r, inTable r emj = true ↔ ∃ line ∈ [lit "00A9          ; Extended_Pictographic# E0.6   [1] (©️)",
      lit "2194..2199    ; Extended_Pictographic# E0.6   [6] (↔️..↙️)"], ∃ lo hi, EmojiLine line lo hi ∧ 0xFF ≤ hi ∧
        lo ≤ r ∧ r ≤ hi := by
  obtain ⟨w1, w2⟩ := exampleEmojiLines
  obtain ⟨_, _, _, _, _, _, emj, _, _, _, _, _, _, _, h⟩ := C93_source exampleWidthBytes exampleEmojiBytes false true false
    [lit "# EastAsianWidth-13.0.0.txt", [], lit "0300..036F;A     # Mn   [112] COMBINING GRAVE ACCENT",
      lit "3000;F           # Zs         IDEOGRAPHIC SPACE"]
    [lit "# Emoji"] [lit "00A9          ; Extended_Pictographic# E0.6   [1] (©️)",
      lit "2194..2199    ; Extended_Pictographic# E0.6   [6] (↔️..↙️)"]
    (lit "# All omitted code points have Extended_Pictographic ; No") (linesOf_of_scan (by decide +kernel)) exampleWidthFile
    (linesOf_of_scan (by decide +kernel)) (by
      intro l hl
      rw [List.mem_singleton] at hl
      subst hl
      unfold Marker
      rw [← containsText_iff]; decide +kernel) (by unfold Marker; rw [← containsText_iff]; decide +kernel) (by
      simp only [List.mem_cons, List.not_mem_nil, or_false]
      rintro l (rfl | rfl)
      · exact .inr ⟨_, _, w1, by decide⟩
      · exact .inr ⟨_, _, w2, by decide⟩) (by
      simp only [List.pairwise_cons, List.mem_cons, List.not_mem_nil, or_false]
      refine ⟨?_, fun _ h => h.elim, List.Pairwise.nil⟩
      rintro b rfl lo hi lo' hi' h h'
      obtain ⟨rfl, rfl⟩ := emojiLine_unique w1 h
      obtain ⟨rfl, rfl⟩ := emojiLine_unique w2 h'
      decide)
  exact ⟨by decide +kernel, emj, h⟩

/-- C93. A text declares tables in one way at most. -/
theorem C93_unique (text : GoString) (d d' : List (GoString × List (Nat × Nat))) (h : DeclaresTables text d)
    (h' : DeclaresTables text d') : d = d' := by
  obtain ⟨ts, e, h⟩ := h
  obtain ⟨ts', e', h'⟩ := h'
  rw [e] at e'
  obtain rfl := List.append_cancel_left (Option.some.inj e')
  exact declarations_unique h h'

/-- The tables of the smallest source with two of them. -/
example : DeclaresTables (lit "package runewidth\nvar a = table{\n{0x10, 0x1F},\n}\nvar b = table{\n}\n")
    [(lit "a", [(16, 31)]), (lit "b", [])] :=
  ⟨_, by decide +kernel, .cons (lit "a") [(16, 31)] [lit "{", lit "0x10", lit ",", lit "0x1F", lit "}", lit ","]
    ([lit "var", lit "b", lit "=", lit "table", lit "{"] ++ [] ++ [lit "}", lit ";"] ++ []) _
    (.cons _ _ _ _ [] [] ⟨lit "10", by decide +kernel, by decide +kernel, by unfold HexDigit; decide +kernel, by decide +kernel⟩
      ⟨lit "1F", by decide +kernel, by decide +kernel, by unfold HexDigit; decide +kernel, by decide +kernel⟩ .nil)
    (.cons (lit "b") [] [] [] [] .nil .nil)⟩

/-! ## C94 -/

/-- C94. A file has lines in one way at most; it has none exactly if it can be cut at a line of 65536 bytes or more,
before which there are only shorter ones. -/
theorem C94_lines (p : Bool) (bytes : GoString) :
    (∀ lines lines', LinesOf p bytes lines → LinesOf p bytes lines' → lines = lines') ∧
    ((∃ lines, LinesOf p bytes lines) ∨ ∃ pre rest lines, CutAtLongLine p bytes pre rest ∧ LinesOf p pre lines) ∧
    ¬ ((∃ lines, LinesOf p bytes lines) ∧ ∃ pre rest lines, CutAtLongLine p bytes pre rest ∧ LinesOf p pre lines) := by
  refine ⟨fun l l' h h' => ?_, ?_, ?_⟩
  · have := (scanLines_linesOf h).symm.trans (scanLines_linesOf h')
    exact (Prod.mk.inj this).1
  · induction hn : bytes.length using Nat.strongRecOn generalizing bytes with
    | ind n ih =>
      rcases bytes_cases p bytes with hl | ⟨hnl, hlen⟩ | ⟨raw, rest, rfl, hnl, hlen⟩
      · exact .inr ⟨[], bytes, [], ⟨rfl, .inl rfl, hl.1, hl.2⟩, .done⟩
      · exact .inl ⟨_, linesOf_of_scan (scanLines_last bytes hnl hlen)⟩
      · rcases ih rest.length (by subst hn; simp; omega) rest rfl with ⟨lines, h⟩ | ⟨pre, rest', lines, hc, h⟩
        · exact .inl ⟨_, .line raw _ rest lines hnl hlen (chopped_dropCR raw) h⟩
        · refine .inr ⟨raw ++ 0x0A :: pre, rest', _, ⟨?_, ?_, hc.long, hc.more⟩, .line raw _ pre lines hnl hlen (chopped_dropCR raw) h⟩
          · rw [hc.split]; simp
          · right
            rcases hc.whole with rfl | hw
            · simp
            · rw [List.getLast?_append, List.getLast?_cons, hw]; simp
  · rintro ⟨⟨lines, h⟩, pre, rest, lines', hc, h'⟩
    have e := scanLines_linesOf h
    rw [hc.split, scanLines_append _ _ hc.whole, scanLines_linesOf h', scanLines_long _ ⟨hc.long, hc.more⟩] at e
    simp at e

theorem scan_cut {p : Bool} {bytes pre rest : GoString} {lines : List GoString} (hc : CutAtLongLine p bytes pre rest)
    (h : LinesOf p pre lines) : scanLines p bytes = (lines, true) := by
  rw [hc.split, scanLines_append _ _ hc.whole, scanLines_linesOf h, scanLines_long _ ⟨hc.long, hc.more⟩]
  simp

/-- C94. Nothing is written if a file cannot be fetched, and only then. -/
theorem C94_not_fetched (ea em : Option Body) (early : Bool) :
    widthSource ea em early = none ↔ ea = none ∨ em = none := by
  cases ea <;> cases em <;> simp [widthSource]

/-- C94. If reading the width file fails, or meets a line that is too long, the generator goes on without a word: it
writes what it would write if the file had ended there. -/
theorem C94_widths_cut (em : Option Body) (p early : Bool) :
    (∀ bytes, widthSource (some ⟨bytes, true, p⟩) em early = widthSource (some ⟨bytes, false, p⟩) em early) ∧
    ∀ bytes pre rest lines broken, CutAtLongLine p bytes pre rest → LinesOf p pre lines →
      widthSource (some ⟨bytes, broken, p⟩) em early = widthSource (some ⟨pre, false, p⟩) em early := by
  refine ⟨fun bytes => by cases em <;> rfl, fun bytes pre rest lines broken hc h => ?_⟩
  have : eastasianText ⟨bytes, broken, p⟩ = eastasianText ⟨pre, false, p⟩ := by
    simp only [eastasianText, Body.scan, scan_cut hc h, scanLines_linesOf h]
  cases em <;> simp [widthSource, this]

/-- C94. The same for the emoji file after the marker, unless the failure was already known when the marker was read. -/
theorem C94_emoji_cut (ea : Option Body) (p : Bool) (lines : List GoString) (marker : GoString) (hm : Marker marker)
    (hmem : marker ∈ lines) :
    (∀ bytes, LinesOf p bytes lines →
      widthSource ea (some ⟨bytes, true, p⟩) false = widthSource ea (some ⟨bytes, false, p⟩) false) ∧
    ∀ bytes pre rest broken early, CutAtLongLine p bytes pre rest → LinesOf p pre lines → (broken = true → early = false) →
      widthSource ea (some ⟨bytes, broken, p⟩) early = widthSource ea (some ⟨pre, false, p⟩) early := by
  obtain ⟨a, b, hab⟩ := List.append_of_mem hmem
  refine ⟨fun bytes h => ?_, fun bytes pre rest broken early hc h hb => ?_⟩
  · have hs := scanLines_linesOf h
    have : emojiText ⟨bytes, true, p⟩ false = emojiText ⟨bytes, false, p⟩ false := by
      rw [emojiText_marker _ _ a b marker (by simp only [Body.scan, hs]; exact hab) hm (by simp),
        emojiText_marker _ _ a b marker (by simp only [Body.scan, hs]; exact hab) hm (by simp)]
      rfl
    cases ea <;> simp [widthSource, this]
  · have hs := scanLines_linesOf h
    have : emojiText ⟨bytes, broken, p⟩ early = emojiText ⟨pre, false, p⟩ early := by
      rw [emojiText_marker _ _ a b marker (by simp only [Body.scan, scan_cut hc h]; exact hab) hm hb,
        emojiText_marker _ _ a b marker (by simp only [Body.scan, hs]; exact hab) hm (by simp)]
      simp only [Body.scan, scan_cut hc h, hs]
    cases ea <;> simp [widthSource, this]

theorem widthSource_bad (ea em : Body) (early : Bool) (h : HexWithoutDigits (eastasianText ea)) :
    ∃ text, widthSource (some ea) (some em) early = some text ∧ HexWithoutDigits text :=
  ⟨_, rfl, bad_append (bad_prepend read_runewidthHeader h) _⟩

/-- C94. If reading the emoji file fails or meets a line that is too long before the marker, the source is written
without the table `emoji` (unless it is no Go source at all, see `C94_always_tables`). -/
theorem C94_emoji_missing (ea em : Body) (early : Bool) (pre : GoString) (lines : List GoString)
    (h : LinesOf em.prompt pre lines)
    (hno : ∀ line ∈ lines, ¬ Marker line)
    (hbad : (em.bytes = pre ∧ em.broken = true) ∨ ∃ rest, CutAtLongLine em.prompt em.bytes pre rest) :
    ∃ text, widthSource (some ea) (some em) early = some text ∧ (HexWithoutDigits text ∨ ∃ cmb dbl amb na nu,
      DeclaresTables text [(lit "combining", cmb), (lit "doublewidth", dbl), (lit "ambiguous", amb), (lit "narrow", na),
        (lit "neutral", nu)]) := by
  have hs : em.scan = (lines, true) := by
    rcases hbad with ⟨hb, hbr⟩ | ⟨rest, hc⟩
    · simp [Body.scan, hb, hbr, scanLines_linesOf h]
    · simp [Body.scan, scan_cut hc h]
  have he : emojiText em early = [] := by
    unfold emojiText
    rw [hs]
    split
    · simp
    · rename_i x xs hd
      have := List.head?_dropWhile_not (p := fun l => !containsText l (lit "Extended_Pictographic ; No")) (l := lines)
      rw [hd] at this
      simp only [List.head?_cons] at this
      have hx : x ∈ lines := (List.dropWhile_sublist _).subset (by rw [hd]; simp)
      exact absurd ((containsText_iff _ _).mp (by simpa using this)) (hno x hx)
  rcases eastasianText_cases ea with ⟨cmb, dbl, amb, na, nu, ht⟩ | hb
  · refine ⟨_, rfl, .inr ⟨cmb, dbl, amb, na, nu, ?_⟩⟩
    have := read_eastasianText ea (em := emojiText em early) ht (by rw [he]; rfl) .nil
    rw [List.append_nil] at this
    exact this
  · obtain ⟨text, h1, h2⟩ := widthSource_bad ea em early hb
    exact ⟨text, h1, .inl h2⟩

/-- C94. Whatever the downloads contain, the text is Go source that declares the first five tables or all six, or it is
refused by gofmt, because of a negative number. -/
theorem C94_always_tables (ea em : Body) (early : Bool) :
    ∃ text, widthSource (some ea) (some em) early = some text ∧ (HexWithoutDigits text ∨ ∃ decls, DeclaresTables text decls ∧
      (decls.map Prod.fst = ["combining", "doublewidth", "ambiguous", "narrow", "neutral"].map lit ∨
       decls.map Prod.fst = ["combining", "doublewidth", "ambiguous", "narrow", "neutral", "emoji"].map lit)) := by
  rcases eastasianText_cases ea with ⟨cmb, dbl, amb, na, nu, ht⟩ | hb
  swap
  · obtain ⟨text, h1, h2⟩ := widthSource_bad ea em early hb
    exact ⟨text, h1, .inl h2⟩
  refine ⟨_, rfl, ?_⟩
  have he : emojiText em early = [] ∨ emojiText em early = generateText (lit "emoji") (emojiTable em.scan.1) := by
    unfold emojiText
    split <;> split <;> simp
  rcases he with he | he
  · exact .inr ⟨_, read_eastasianText ea (em := emojiText em early) ht (by rw [he]; rfl) .nil, .inl rfl⟩
  · rcases generateText_cases (lit "emoji") (by decide +kernel) (by decide +kernel) (emojiTable em.scan.1) with ⟨emj, h⟩ | h
    · exact .inr ⟨_, read_eastasianText ea (em := emojiText em early) ht
        (by rw [he, h]; exact read_generateText (lit "emoji") (by decide +kernel) (by decide +kernel) _)
        (by simpa only [List.append_nil] using declarations_cons (lit "emoji") _ .nil), .inr rfl⟩
    · have hr : ∃ ts, readBytes (.code false) (lit "// Code generated by script/generate.go. DO NOT EDIT.\n\n" ++
          lit "package runewidth\n\n" ++ eastasianText ea) = some (.code false, ts) := read_widthHead ea ht
      obtain ⟨ts, hr⟩ := hr
      left
      rw [he]
      exact bad_prepend hr h.2

/- A response that is not the file at all gives six empty tables. -/
example : widthSource (some ⟨lit "404 page not found\n", false, false⟩) (some ⟨lit "404 page not found\n", false, false⟩) false =
    some (lit "// Code generated by script/generate.go. DO NOT EDIT.\n\npackage runewidth\n\n" ++
      (["combining", "doublewidth"].flatMap fun v => lit "var " ++ lit v ++ lit " = table{\n\t\n}\n\n") ++
      lit "var ambiguous = table{\n\t\n}\n" ++
      (["narrow", "neutral"].flatMap fun v => lit "var " ++ lit v ++ lit " = table{\n\t\n}\n\n") ++
      lit "var emoji = table{\n\t\n}\n") := by
  decide +kernel

theorem takeWhile_hashes : (List.replicate 65536 (0x23 : UInt8)).takeWhile (· != 0x0A) = List.replicate 65536 0x23 :=
  takeWhile_all _ fun hx => absurd (List.eq_of_mem_replicate hx) (by decide)

/- The conditions hold: a connection that breaks in a line of the width file, and a long line, unless its end is reported
promptly. -/
example : CutAtLongLine false (lit "0300;A\n" ++ List.replicate 65536 0x23) (lit "0300;A\n") (List.replicate 65536 0x23) ∧
    LinesOf true (lit "0300;A\n") [lit "0300;A"] ∧ LinesOf true (lit "3000;F\n3001..3") [lit "3000;F", lit "3001..3"] ∧
    LinesOf true (List.replicate 65536 0x23) [List.replicate 65536 0x23] ∧ ¬ Marker (lit "0300;A") := by
  refine ⟨⟨rfl, .inr (by decide +kernel), ?_, fun h => absurd h.1 (by decide)⟩, linesOf_of_scan (by decide +kernel),
    linesOf_of_scan (by decide +kernel), .last _ _ (fun h => ?_) (fun hx => ?_) (.inr ⟨rfl, List.length_replicate⟩)
    (.inr ⟨rfl, ?_⟩), ?_⟩
  · rw [takeWhile_hashes, List.length_replicate]
  · have := congrArg List.length h
    rw [List.length_replicate, List.length_nil] at this
    omega
  · exact absurd (List.eq_of_mem_replicate hx) (by decide)
  · intro h
    exact absurd (List.eq_of_mem_replicate (List.mem_of_getLast? h)) (by decide)
  · unfold Marker; rw [← containsText_iff]; decide +kernel

/-! ## C95 -/

theorem scan_intact {b : Body} (h : b.scan.2 = false) : b.broken = false ∧ LinesOf b.prompt b.bytes b.scan.1 := by
  simp only [Body.scan, Bool.or_eq_false_iff] at h
  exact ⟨h.2, linesOf_of_scan (Prod.ext rfl h.1)⟩

/-- The file at this URL can be read to its end and has these lines. -/
def Intact (fetch : GoString → Option Body) (url : GoString) (lines : List GoString) : Prop :=
  ∃ b, fetch url = some b ∧ b.broken = false ∧ LinesOf b.prompt b.bytes lines

theorem wanted_main {args : List GoString} (hl : 5 ≤ args.length) (h : mainURL args ≠ []) : Wanted args (mainURL args) := by
  have h1 : args[1]? = some (args.getD 1 []) := by
    rw [List.getD_eq_getElem?_getD, List.getElem?_eq_getElem (by omega)]; rfl
  unfold mainURL at h ⊢
  split at h
  · rename_i hne
    rw [if_pos hne]
    exact .inl ⟨_, h1, hne, rfl⟩
  · simp at h

theorem wanted_emoji {args : List GoString} (h : (generatorFlags args (lit "emojis")).getD [] ≠ []) :
    Wanted args emojiURL := by
  cases hf : generatorFlags args (lit "emojis") with
  | none => rw [hf] at h; simp at h
  | some p =>
    rw [hf] at h
    exact .inr ⟨p, (C75_flags _ _ _).mp hf, h, rfl⟩

theorem of_wanted {args : List GoString} {url : GoString} (h : Wanted args url) :
    (url = mainURL args ∧ mainURL args ≠ []) ∨ (url = emojiURL ∧ (generatorFlags args (lit "emojis")).getD [] ≠ []) := by
  rcases h with ⟨file, hf, hne, rfl⟩ | ⟨p, hp, hne, rfl⟩
  · left
    have h1 : args.getD 1 [] = file := by rw [List.getD_eq_getElem?_getD, hf]; rfl
    have : mainURL args = lit "https://www.unicode.org/Public/14.0.0/ucd/" ++ file ++ lit ".txt" := by
      rw [mainURL, h1, if_pos hne, propertyURL]
    rw [this]
    refine ⟨rfl, ?_⟩
    have : lit "https://www.unicode.org/Public/14.0.0/ucd/" ≠ [] := by decide +kernel
    simp [this]
  · right
    rw [(C75_flags _ _ _).mpr hp]
    exact ⟨rfl, hne⟩

/-- The outcome for files given by their lines, as an outcome for files given by their bytes. -/
def bodyOutcome : GenOutcome → BodyOutcome
  | .notEnoughArguments => .notEnoughArguments
  | .failed e => .failed (.text e)
  | .panicked => .panicked
  | .source text => .source text

/-- The result of reading lines, as a result of reading bytes. -/
def bodyResult : Except GenError (List PropertyText) → Except BodyError (List PropertyText)
  | .error e => .error (.text e)
  | .ok ps => .ok ps

theorem intact_scan {fetch : GoString → Option Body} {url : GoString} {lines : List GoString} (h : Intact fetch url lines) :
    ∃ b, fetch url = some b ∧ b.scan = (lines, false) := by
  obtain ⟨b, h1, h2, h3⟩ := h
  exact ⟨b, h1, by simp [Body.scan, scanLines_linesOf h3, h2]⟩

theorem readProperties_intact (args : List GoString) (fetch : GoString → Option Body) (lines : GoString → List GoString)
    (hl : 5 ≤ args.length) (h : ∀ url, Wanted args url → Intact fetch url (lines url)) :
    readProperties args fetch = bodyResult (parseFiles (mainInput args lines) (emojiInput args lines)) := by
  unfold readProperties parseBodies mainInput emojiInput
  by_cases hu : mainURL args = []
  · by_cases hp : (generatorFlags args (lit "emojis")).getD [] = []
    · simp [hu, hp, parseFiles, bodyResult]
    · obtain ⟨b, hb, hs⟩ := intact_scan (h _ (wanted_emoji hp))
      simp only [hu, hp, and_false, if_false, ne_eq, not_true_eq_false, not_false_eq_true, if_true, parseEmojiBody, hb, hs,
        parseFiles, Option.getD_none, parseMainLines]
      cases parseEmojiLines ((generatorFlags args (lit "emojis")).getD []) (lines emojiURL) 1 <;> rfl
  · obtain ⟨b, hb, hs⟩ := intact_scan (h _ (wanted_main hl hu))
    by_cases hp : (generatorFlags args (lit "emojis")).getD [] = []
    · simp only [hu, hp, false_and, if_false, ne_eq, not_true_eq_false, not_false_eq_true, if_true, parseMainBody, hb, hs,
        parseFiles, Option.getD_some]
      cases parseMainLines (lines (mainURL args)) 1 with
      | error n => rfl
      | ok ps => simp [bodyResult, bind, Except.bind, pure, Except.pure]
    · obtain ⟨b', hb', hs'⟩ := intact_scan (h _ (wanted_emoji hp))
      simp only [hu, hp, false_and, if_false, ne_eq, not_false_eq_true, if_true, parseMainBody, hb, hs, parseEmojiBody,
        hb', hs', parseFiles, Option.getD_some]
      cases parseMainLines (lines (mainURL args)) 1 with
      | error n => rfl
      | ok ps =>
        cases parseEmojiLines ((generatorFlags args (lit "emojis")).getD []) (lines emojiURL) 1 <;> rfl

/-- C95. If all files that are wanted can be read to their ends, the generator of the property tables ends as described for
files given by their lines (C64, C74, C75). -/
theorem C95_intact (args : List GoString) (fetch : GoString → Option Body) (lines : GoString → List GoString)
    (date : GoString) (h : ∀ url, Wanted args url → Intact fetch url (lines url)) (o : BodyOutcome) :
    GeneratesFrom args fetch date o ↔ ∃ o', Generates args lines date o' ∧ o = bodyOutcome o' := by
  by_cases hl : 5 ≤ args.length
  · have hr := readProperties_intact args fetch lines hl h
    constructor
    · intro hg
      cases hg with
      | notEnough hn => omega
      | failed e _ hp =>
        rw [hr] at hp
        cases hf : parseFiles (mainInput args lines) (emojiInput args lines) with
        | error e' =>
          rw [hf] at hp
          cases hp
          exact ⟨_, .failed e' hl hf, rfl⟩
        | ok ps => rw [hf] at hp; cases hp
      | panicked ps sorted _ hp hs ht =>
        rw [hr] at hp
        cases hf : parseFiles (mainInput args lines) (emojiInput args lines) with
        | error e' => rw [hf] at hp; cases hp
        | ok ps' => rw [hf] at hp; cases hp; exact ⟨_, .panicked ps sorted hl hf hs ht, rfl⟩
      | source ps sorted text _ hp hs ht =>
        rw [hr] at hp
        cases hf : parseFiles (mainInput args lines) (emojiInput args lines) with
        | error e' => rw [hf] at hp; cases hp
        | ok ps' => rw [hf] at hp; cases hp; exact ⟨_, .source ps sorted text hl hf hs ht, rfl⟩
    · rintro ⟨o', hg, rfl⟩
      cases hg with
      | notEnough hn => omega
      | failed e _ hp => exact .failed _ hl (by rw [hr, hp]; rfl)
      | panicked ps sorted _ hp hs ht => exact .panicked ps sorted hl (by rw [hr, hp]; rfl) hs ht
      | source ps sorted text _ hp hs ht => exact .source ps sorted text hl (by rw [hr, hp]; rfl) hs ht
  · constructor
    · intro hg
      cases hg with
      | notEnough hn => exact ⟨_, .notEnough hn, rfl⟩
      | failed _ h5 => contradiction
      | panicked _ _ h5 => contradiction
      | source _ _ _ h5 => contradiction
    · rintro ⟨o', hg, rfl⟩
      cases hg with
      | notEnough hn => exact .notEnough hn
      | failed _ h5 => contradiction
      | panicked _ _ h5 => contradiction
      | source _ _ _ h5 => contradiction

/-- C95. If a file that is wanted cannot be fetched, breaks off, or has a line that is too long, the generator reports
an error; it never writes an incomplete table. -/
theorem C95_trouble (args : List GoString) (fetch : GoString → Option Body) (date url : GoString)
    (hw : Wanted args url) (h : ¬ ∃ lines, Intact fetch url lines) (o : BodyOutcome) (hg : GeneratesFrom args fetch date o) :
    o = .notEnoughArguments ∨ ∃ e, o = .failed e := by
  have hbad : ∀ b, fetch url = some b → b.scan.2 = true := by
    intro b hb
    cases hs : b.scan.2 with
    | true => rfl
    | false => exact absurd ⟨_, b, hb, scan_intact hs⟩ h
  have key : ∀ ps, readProperties args fetch ≠ .ok ps := by
    intro ps hps
    unfold readProperties parseBodies at hps
    rcases of_wanted hw with ⟨rfl, hne⟩ | ⟨rfl, hne⟩
    · simp only [hne, false_and, if_false, ne_eq, not_false_eq_true, if_true] at hps
      unfold parseMainBody at hps
      cases hf : fetch (mainURL args) with
      | none => rw [hf] at hps; cases hps
      | some b =>
        rw [hf] at hps
        simp only [hbad b hf, if_true] at hps
        cases hm : parseMainLines b.scan.1 1 <;> rw [hm] at hps <;> cases hps
    · simp only [hne, and_false, if_false, ne_eq, not_false_eq_true, if_true] at hps
      have hx : ∀ qs, parseEmojiBody ((generatorFlags args (lit "emojis")).getD []) (fetch emojiURL) ≠ .ok qs := by
        intro qs hqs
        unfold parseEmojiBody at hqs
        cases hf : fetch emojiURL with
        | none => rw [hf] at hqs; cases hqs
        | some b =>
          rw [hf] at hqs
          simp only [hbad b hf, if_true] at hqs
          cases hm : parseEmojiLines ((generatorFlags args (lit "emojis")).getD []) b.scan.1 1 <;> rw [hm] at hqs <;> cases hqs
      cases he : parseEmojiBody ((generatorFlags args (lit "emojis")).getD []) (fetch emojiURL) with
      | ok qs => exact hx qs he
      | error e =>
        rw [he] at hps
        split at hps
        · cases hm : parseMainBody (fetch (mainURL args)) <;> rw [hm] at hps <;> cases hps
        · cases hps
  cases hg with
  | notEnough => exact .inl rfl
  | failed e => exact .inr ⟨e, rfl⟩
  | panicked ps _ _ hp => exact absurd hp (key ps)
  | source ps _ _ _ hp => exact absurd hp (key ps)

/- A file that breaks off after its first line: the width generator takes it, the property generator does not. -/
example : Wanted exampleArgs emojiURL ∧
    readProperties exampleArgs (fun url => if url = emojiURL then some ⟨lit "00A9 ; Extended_Pictographic# x\n00", true, false⟩
      else some ⟨lit "000D ; CR # x\n", false, false⟩) = .error (.read false) ∧
    readProperties exampleArgs (fun url => if url = emojiURL then some ⟨lit "00A9 ; Extended_Pictographic# x\n# 00", false, false⟩
      else some ⟨lit "000D ; CR # x\r\n", false, false⟩) =
      .ok [⟨lit "000D", lit "000D", lit "CR", lit "x"⟩, ⟨lit "00A9", lit "00A9", lit "Extended_Pictographic", lit "x"⟩] := by
  refine ⟨wanted_emoji (by decide +kernel), by decide +kernel, by decide +kernel⟩

end GoTable
