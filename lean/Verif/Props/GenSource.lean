import Verif.Proofs.GenSource
/-!
# C74, C75: the source the generator of the property tables writes, and its command line
-/

namespace GoTable
open Spec

/-! ## C74 -/

/-- The general category in a comment, as the generator writes it. -/
def categoryName (comment : GoString) : GoString :=
  if comment.take 2 = lit "L&" then lit "gcLC" else lit "gc" ++ comment.take 2

/-- The row of a property: the bounds, the property, and perhaps the general category. -/
def sourceRow (gencat : Bool) (p : PropertyText) : List GoString :=
  [lit "0x" ++ p.from_, lit "0x" ++ p.to, lit "pr" ++ p.property.filter (· != 0x5F)] ++
    if gencat then [categoryName p.comment] else []

theorem read_open : readBytes (.code false) (lit "{0x") = some (.word (lit "0x"), [lit "{"]) := by decide +kernel

theorem read_comma (w : GoString) : readBytes (.word w) (lit ",") = some (.code false, [w, lit ","]) := by
  rw [show lit "," = [0x2C] by decide +kernel]
  simp [readBytes, readByte, readCode, WordByte, punctuation]

theorem read_close (w : GoString) : readBytes (.word w) (lit "}, // ") = some (.comment false, [w, lit "}", lit ","]) := by
  have h1 : readBytes (.word w) [0x7D] = some (.code true, [w, [0x7D]]) := by
    simp [readBytes, readByte, readCode, WordByte, punctuation]
  have h2 : readBytes (.code true) [0x2C, 0x20, 0x2F, 0x2F, 0x20] = some (.comment false, [[0x2C]]) := by decide +kernel
  have := readBytes_trans h1 h2
  rw [show lit "}, // " = [0x7D] ++ [0x2C, 0x20, 0x2F, 0x2F, 0x20] by decide +kernel, this]
  rw [show lit "}" = [0x7D] by decide +kernel, show lit "," = [0x2C] by decide +kernel]
  rfl

theorem read_newline : readBytes (.comment false) (lit "\n") = some (.code false, []) := by decide +kernel

theorem wordByte_hex {b : UInt8} (h : HexDigit b) : WordByte b := by
  unfold HexDigit at h; unfold WordByte; omega

theorem read_afterComma (w v : GoString) (hne : v ≠ []) (hv : ∀ b ∈ v, WordByte b) :
    readBytes (.word w) (lit "," ++ v) = some (.word v, [w, lit ","]) := by
  have := readBytes_trans (read_comma w) (readBytes_newWord false v hne hv)
  simpa using this

theorem read_entry (gencat : Bool) (p : PropertyText) (line : GoString)
    (hp : PropertyLine line p.from_ p.to p.property p.comment)
    (hcat : gencat = true → ∀ b ∈ categoryName p.comment, WordByte b) (text : GoString)
    (h : sourceEntry gencat p = some text) :
    readBytes (.code false) text =
      some (.code false, [lit "{"] ++ (sourceRow gencat p).intersperse (lit ",") ++ [lit "}", lit ","]) := by
  obtain ⟨_, _, _, _, _, _, _, hf, ht, _, _, _, _, hpne, hpw, hcne, hcnl⟩ := hp
  have wf : ∀ b ∈ p.from_, WordByte b := fun b hb => wordByte_hex (hf.2.2 b hb)
  have wt : ∀ b ∈ lit "0x" ++ p.to, WordByte b := by
    intro b hb
    rw [show lit "0x" = [0x30, 0x78] by decide +kernel] at hb
    rcases List.mem_append.mp hb with hb | hb
    · simp only [List.mem_cons, List.not_mem_nil, or_false] at hb
      rcases hb with rfl | rfl <;> decide
    · exact wordByte_hex (ht.2.2 b hb)
  have wp : ∀ b ∈ translateProperty (lit "pr") p.property, WordByte b := by
    intro b hb
    rw [translateProperty, show lit "pr" = [0x70, 0x72] by decide +kernel] at hb
    rcases List.mem_append.mp hb with hb | hb
    · simp only [List.mem_cons, List.not_mem_nil, or_false] at hb
      rcases hb with rfl | rfl <;> decide
    · exact hpw b (List.mem_filter.mp hb).1
  have pne : translateProperty (lit "pr") p.property ≠ [] := by
    rw [translateProperty, show lit "pr" = [0x70, 0x72] by decide +kernel]; simp
  have tne : lit "0x" ++ p.to ≠ [] := by rw [show lit "0x" = [0x30, 0x78] by decide +kernel]; simp
  have h1 := readBytes_trans read_open (readBytes_word (lit "0x") p.from_ wf)
  have h2 := readBytes_trans h1 (read_afterComma (lit "0x" ++ p.from_) (lit "0x" ++ p.to) tne wt)
  have h3 := readBytes_trans h2 (read_afterComma (lit "0x" ++ p.to) _ pne wp)
  have hx : lit ",0x" = lit "," ++ lit "0x" := by decide +kernel
  unfold sourceEntry at h
  split at h
  · rename_i hg
    subst hg
    split at h
    · simp at h
    split at h
    · simp at h
    rename_i hl2 hl3
    simp only [Option.some.injEq] at h
    have hc : (if lit "gc" ++ p.comment.take 2 = lit "gcL&" then lit "gcLC" else lit "gc" ++ p.comment.take 2) =
        categoryName p.comment := by
      unfold categoryName
      rw [show lit "gcL&" = lit "gc" ++ lit "L&" by decide +kernel]
      simp only [List.append_cancel_left_eq]
    rw [hc] at h
    have cne : categoryName p.comment ≠ [] := by
      unfold categoryName
      split
      · decide +kernel
      · rw [show lit "gc" = [0x67, 0x63] by decide +kernel]; simp
    have h4 := readBytes_trans h3 (read_afterComma _ _ cne (hcat rfl))
    have h5 := readBytes_trans h4 (read_close _)
    have h6 := readBytes_trans h5 (readBytes_comment false (p.comment.drop 3) fun hm => hcnl (List.mem_of_mem_drop hm))
    have h7 := readBytes_trans h6 read_newline
    rw [← h]
    rw [hx]
    simp only [List.append_assoc] at h7 ⊢
    rw [h7]
    simp [sourceRow, translateProperty, List.intersperse]
  · rename_i hg
    simp only [Bool.not_eq_true] at hg
    subst hg
    simp only [Option.some.injEq] at h
    have h5 := readBytes_trans h3 (read_close _)
    have h6 := readBytes_trans h5 (readBytes_comment false p.comment hcnl)
    have h7 := readBytes_trans h6 read_newline
    rw [← h]
    rw [hx]
    simp only [List.append_assoc] at h7 ⊢
    rw [h7]
    simp [sourceRow, translateProperty, List.intersperse]

theorem read_entries (gencat : Bool) (ps : List PropertyText)
    (hp : ∀ p ∈ ps, (∃ line, PropertyLine line p.from_ p.to p.property p.comment) ∧
      (gencat = true → ∀ b ∈ categoryName p.comment, WordByte b)) (texts : List GoString)
    (h : ps.mapM (sourceEntry gencat) = some texts) :
    readBytes (.code false) texts.flatten =
      some (.code false, (ps.map (sourceRow gencat)).flatMap fun row =>
        [lit "{"] ++ row.intersperse (lit ",") ++ [lit "}", lit ","]) := by
  induction ps generalizing texts with
  | nil =>
    simp only [List.mapM_nil, Option.pure_def, Option.some.injEq] at h
    subst h; rfl
  | cons p ps ih =>
    rw [List.mapM_cons] at h
    cases he : sourceEntry gencat p with
    | none => simp [he] at h
    | some t =>
      cases hr : ps.mapM (sourceEntry gencat) with
      | none => simp [he, hr] at h
      | some ts =>
        simp only [he, hr, Option.bind_eq_bind, Option.bind_some, Option.pure_def, Option.some.injEq] at h
        subst h
        obtain ⟨⟨line, hl⟩, hc⟩ := hp p (by simp)
        have := readBytes_trans (read_entry gencat p line hl hc t he) (ih (fun q hq => hp q (by simp [hq])) ts hr)
        rw [List.flatten_cons, this]
        simp

theorem read_header (name url date : GoString) (gencat : Bool) (hne : name ≠ []) (hname : ∀ b ∈ name, WordByte b)
    (hurl : 0x0A ∉ url) (hdate : 0x0A ∉ date) :
    readBytes (.code false) (sourceHeader name url date (if gencat then lit "4" else lit "3")) =
      some (.code false, [lit "package", lit "uniseg", lit ";", lit "var", name, lit "=", lit "[", lit "]", lit "[",
        if gencat then lit "4" else lit "3", lit "]", lit "int", lit "{"]) := by
  have hnl : 0x0A ∉ name := fun h => by have := hname _ h; revert this; decide
  have h1 : readBytes (.code false)
      (lit "package uniseg\n\n// Code generated via go generate from gen_properties.go. DO NOT EDIT.\n\n// ") =
      some (.comment false, [lit "package", lit "uniseg", lit ";"]) := by decide +kernel
  have h2 := readBytes_trans h1 (readBytes_comment false name hnl)
  have h3 := readBytes_trans h2 (show readBytes (.comment false) (lit " are taken from\n// ") = some (.comment false, []) by
    decide +kernel)
  have h4 := readBytes_trans h3 (readBytes_comment false url hurl)
  have h5 := readBytes_trans h4 (show readBytes (.comment false)
      (if emojiURL ≠ [] then lit "\n// and\n// " ++ emojiURL ++ lit "\n// (\"Extended_Pictographic\" only)" else []) =
      some (.comment false, []) by decide +kernel)
  have h6 := readBytes_trans h5 (show readBytes (.comment false) (lit "\n// on ") = some (.comment false, []) by
    decide +kernel)
  have h7 := readBytes_trans h6 (readBytes_comment false date hdate)
  have h8 := readBytes_trans h7 (show readBytes (.comment false)
      (lit ". See https://www.unicode.org/license.html for the Unicode\n// license agreement.\nvar ") =
      some (.code false, [lit "var"]) by decide +kernel)
  have h9 := readBytes_trans h8 (readBytes_newWord false name hne hname)
  have hs : readBytes (.word name) (lit " = [][") =
      some (.code false, [name, lit "=", lit "[", lit "]", lit "["]) := by
    have a : readBytes (.word name) [0x20] = some (.code (endsStatement name), [name]) := by
      simp [readBytes, readByte, readCode, WordByte]
    have b : ∀ q, readBytes (.code q) [0x3D, 0x20, 0x5B, 0x5D, 0x5B] =
        some (.code false, [[0x3D], [0x5B], [0x5D], [0x5B]]) := by decide +kernel
    have := readBytes_trans a (b _)
    rw [show lit " = [][" = [0x20] ++ [0x3D, 0x20, 0x5B, 0x5D, 0x5B] by decide +kernel, this]
    rw [show lit "=" = [0x3D] by decide +kernel, show lit "[" = [0x5B] by decide +kernel,
      show lit "]" = [0x5D] by decide +kernel]
    rfl
  have h10 := readBytes_trans h9 hs
  have h11 : readBytes (.code false) ((if gencat then lit "4" else lit "3") ++ lit "]int{\n\t") =
      some (.code false, [if gencat then lit "4" else lit "3", lit "]", lit "int", lit "{"]) := by
    cases gencat <;> decide +kernel
  have h12 := readBytes_trans h10 h11
  rw [sourceHeader]
  simp only [List.append_assoc] at h12 ⊢
  rw [h12]
  simp

theorem mem_mainURL {args : List GoString} (h : 0x0A ∉ args.getD 1 []) : 0x0A ∉ mainURL args := by
  unfold mainURL propertyURL
  split
  · intro hm
    simp only [List.mem_append] at hm
    rcases hm with (hm | hm) | hm
    · revert hm; decide +kernel
    · exact h hm
    · revert hm; decide +kernel
  · simp

/-- C75. The flags are separated by commas; a flag without `=` has the value `yes`; of several with the same name the
last counts. -/
theorem C75_flags (args : List GoString) (k v : GoString) :
    generatorFlags args k = some v ↔ GivenFlag args k v := by
  unfold generatorFlags GivenFlag
  cases h5 : args[5]? with
  | none => simp
  | some arg =>
    dsimp only
    rw [foldl_addFlag]
    obtain ⟨hs, hj⟩ := splitByte_fields 0x2C arg
    constructor
    · rintro (h | ⟨h, _⟩)
      · exact ⟨_, splitByte_ne_nil _ _, hs, by rw [hj], h⟩
      · simp at h
    · rintro ⟨flags, hne, hf, harg, hl⟩
      rw [Option.some.inj harg, splitByte_intercalate _ _ hne hf]
      exact .inl hl

example : generatorFlags ([[], [], [], [], []] ++ [lit "gencat,emojis=A,emojis=B=C,x"]) (lit "emojis") = some (lit "B") ∧
    generatorFlags ([[], [], [], [], []] ++ [lit "gencat,emojis=A,emojis=B=C,x"]) (lit "gencat") = some (lit "yes") ∧
    generatorFlags ([[], [], [], [], []] ++ [lit "gencat,emojis=A,emojis=B=C,x"]) (lit "y") = none := by decide +kernel

theorem mainInput_eq {args : List GoString} {fetch : GoString → List GoString} {main : Option (List GoString)}
    {emoji : Option (GoString × List GoString)} (hs : Sources args fetch main emoji) (hl : 5 ≤ args.length) :
    mainInput args fetch = main := by
  have h1 : args[1]? = some (args.getD 1 []) := by
    rw [List.getD_eq_getElem?_getD, List.getElem?_eq_getElem (by omega)]; rfl
  unfold mainInput mainURL
  by_cases hd : args.getD 1 [] = lit "-"
  · rw [hs.skipped (by rw [h1, hd])]
    simp only [hd, ne_eq, not_true_eq_false, if_false]
  · rw [hs.named _ h1 hd]
    have : propertyURL (args.getD 1 []) ≠ [] := by
      unfold propertyURL
      have : lit "https://www.unicode.org/Public/14.0.0/ucd/" ≠ [] := by decide +kernel
      simp [this]
    simp only [ne_eq, hd, not_false_eq_true, if_true, this]
    rfl

theorem emojiInput_eq {args : List GoString} {fetch : GoString → List GoString} {main : Option (List GoString)}
    {emoji : Option (GoString × List GoString)} (hs : Sources args fetch main emoji) :
    emojiInput args fetch = emoji := by
  unfold emojiInput
  cases hf : generatorFlags args (lit "emojis") with
  | none =>
    rw [hs.noEmojis]
    · simp
    · intro p hp; rw [(C75_flags _ _ _).mpr hp] at hf; cases hf
  | some v =>
    by_cases hv : v = []
    · rw [hs.noEmojis]
      · simp [hv]
      · intro p hp; rw [(C75_flags _ _ _).mpr hp] at hf; cases hf; exact hv
    · rw [hs.emojis v ((C75_flags _ _ _).mp hf) hv]
      simp only [Option.getD_some, ne_eq, hv, not_false_eq_true, if_true]
      rfl

/-- C75. Every command line with enough arguments asks for something definite. -/
theorem C75_sources (args : List GoString) (fetch : GoString → List GoString) (hl : 5 ≤ args.length) :
    ∃ main emoji, Sources args fetch main emoji ∧
      ∀ main' emoji', Sources args fetch main' emoji' → main' = main ∧ emoji' = emoji := by
  refine ⟨mainInput args fetch, emojiInput args fetch, ⟨?_, ?_, ?_, ?_⟩, fun m e h => ⟨(mainInput_eq h hl).symm, (emojiInput_eq h).symm⟩⟩
  · intro h
    have : args.getD 1 [] = lit "-" := by rw [List.getD_eq_getElem?_getD, h]; rfl
    simp only [mainInput, mainURL, this, ne_eq, not_true_eq_false, if_false]
  · intro file h hne
    have h1 : args.getD 1 [] = file := by rw [List.getD_eq_getElem?_getD, h]; rfl
    have : propertyURL file ≠ [] := by
      unfold propertyURL
      have : lit "https://www.unicode.org/Public/14.0.0/ucd/" ≠ [] := by decide +kernel
      simp [this]
    simp only [mainInput, mainURL, h1, ne_eq, hne, not_false_eq_true, if_true, this]
    rfl
  · intro p h hne
    unfold emojiInput
    rw [(C75_flags _ _ _).mpr h]
    simp only [Option.getD_some, ne_eq, hne, not_false_eq_true, if_true]
    rfl
  · intro h
    unfold emojiInput
    cases hf : generatorFlags args (lit "emojis") with
    | none => simp
    | some v => simp [h v ((C75_flags _ _ _).mp hf)]

theorem gencat_iff {args : List GoString} {gencat : Bool}
    (hg : gencat = true ↔ ∃ v, GivenFlag args (lit "gencat") v) :
    (generatorFlags args (lit "gencat")).isSome = gencat := by
  rw [Bool.eq_iff_iff, hg, Option.isSome_iff_exists]
  exact exists_congr fun v => C75_flags _ _ _

/-- C74. The source that is written, read as Go source, declares exactly one table under the given name: it has one row
for each data line of the files that were read, in ascending order, with the bounds and the property of the line. What
the comments say cannot change that. -/
theorem C74_source (args : List GoString) (fetch : GoString → List GoString) (date text : GoString)
    (h : Generates args fetch date (.source text)) (main : Option (List GoString))
    (emoji : Option (GoString × List GoString)) (hin : Sources args fetch main emoji) (gencat : Bool)
    (hg : gencat = true ↔ ∃ v, GivenFlag args (lit "gencat") v)
    (name : GoString) (hargs : args[3]? = some name) (hne : name ≠ [])
    (hname : ∀ b ∈ name, WordByte b) (hfile : 0x0A ∉ args.getD 1 []) (hdate : 0x0A ∉ date)
    (hcat : gencat = true → ∀ line ∈ dataLines main emoji, ∀ f t p c, PropertyLine line f t p c →
        ∀ b ∈ categoryName c, WordByte b) :
    ∃ lines entries, lines.Perm (dataLines main emoji) ∧ Texts lines entries ∧
      entries.Pairwise (fun a b => hexNumber a.from_ ≤ hexNumber b.from_) ∧
      goTokens text = some (tableTokens name (if gencat then lit "4" else lit "3")
        (entries.map (sourceRow gencat))) := by
  cases h with
  | source ps sorted _ hlen hparse hsort hsrc =>
    rw [gencat_iff hg] at hsrc
    rw [mainInput_eq hin hlen, emojiInput_eq hin] at hparse
    obtain ⟨_, htl, htext⟩ := ((C64_parse _ _).1 ps).mp hparse
    have hname3 : args.getD 3 [] = name := by rw [List.getD_eq_getElem?_getD, hargs]; rfl
    rw [hname3] at hsrc
    generalize hdl : dataLines main emoji = dl at *
    have hz : ∀ q ∈ dl.zip ps, PropertyLine q.1 q.2.from_ q.2.to q.2.property q.2.comment := by
      intro q hq
      obtain ⟨i, hi⟩ := List.mem_iff_getElem?.mp hq
      rw [List.getElem?_zip_eq_some] at hi
      exact htext i _ _ hi.1 hi.2
    have hm2 : (dl.zip ps).map Prod.snd = ps := List.map_snd_zip (by omega)
    have hm1 : (dl.zip ps).map Prod.fst = dl := List.map_fst_zip (by omega)
    -- the lines in the order of the sorted entries
    have hperm : ∃ z : List (GoString × PropertyText), z.Perm (dl.zip ps) ∧ z.map Prod.snd = sorted := by
      have := hsort.1
      rw [← hm2] at this
      exact exists_perm_map this
    obtain ⟨z, hzp, hzs⟩ := hperm
    have hzl : ∀ q ∈ z, PropertyLine q.1 q.2.from_ q.2.to q.2.property q.2.comment := fun q hq => hz q (hzp.mem_iff.mp hq)
    have hsl : ∀ p ∈ sorted, ∃ line ∈ dl, PropertyLine line p.from_ p.to p.property p.comment := by
      intro p hp
      rw [← hzs] at hp
      obtain ⟨q, hq, rfl⟩ := List.mem_map.mp hp
      refine ⟨q.1, ?_, hzl q hq⟩
      rw [← hm1]
      exact List.mem_map_of_mem (hzp.mem_iff.mp hq)
    refine ⟨z.map Prod.fst, sorted, ?_, ⟨?_, ?_⟩, ?_, ?_⟩
    · have := hzp.map Prod.fst
      rwa [hm1] at this
    · rw [← hzs]; simp
    · intro i line p hl hp
      rw [← hzs] at hp
      rw [List.getElem?_map] at hl hp
      cases hzi : z[i]? with
      | none => simp [hzi] at hl
      | some q =>
        simp only [hzi, Option.map_some, Option.some.injEq] at hl hp
        subst hl hp
        exact hzl q (List.mem_of_getElem? hzi)
    · refine List.Pairwise.imp_of_mem ?_ hsort.2
      intro a b ha hb hab
      obtain ⟨_, _, la⟩ := hsl a ha
      obtain ⟨_, _, lb⟩ := hsl b hb
      obtain ⟨_, _, _, _, _, _, _, hfa, _⟩ := la
      obtain ⟨_, _, _, _, _, _, _, hfb, _⟩ := lb
      rw [hexNumber_eq _ hfa.2.2, hexNumber_eq _ hfb.2.2] at hab
      omega
    · unfold propertySource at hsrc
      cases hr : sorted.mapM (sourceEntry gencat) with
      | none => simp [hr] at hsrc
      | some texts =>
        simp only [hr, Option.map_some, Option.some.injEq] at hsrc
        have r1 := read_header name (mainURL args) date gencat hne hname (mem_mainURL hfile) hdate
        have r2 := readBytes_trans r1 (read_entries gencat sorted (fun p hp => by
          obtain ⟨line, hl, hpl⟩ := hsl p hp
          exact ⟨⟨line, hpl⟩, fun hg => hcat hg line hl _ _ _ _ hpl⟩) texts hr)
        have r3 := readBytes_trans r2 (show readBytes (.code false) (lit "}") = some (.code true, [lit "}"]) by decide +kernel)
        rw [← hsrc, goTokens, r3]
        simp [readEnd, tableTokens, show lit ";" = [0x3B] by decide +kernel]

/-- The command line of /repo/runewidth/uniseg/gen_properties.go:17. -/
def exampleArgs : List GoString :=
  ["gen_properties", "auxiliary/GraphemeBreakProperty", "graphemeproperties.go", "graphemeCodePoints", "graphemes",
   "emojis=Extended_Pictographic"].map lit

/-- Small data files. -/
def exampleFetch (url : GoString) : List GoString := if url = emojiURL then exampleEmoji else exampleMain

/-- What the generator makes of them. -/
def exampleSource : GoString :=
  (["package uniseg\n",
    "\n// Code generated via go generate from gen_properties.go. DO NOT EDIT.\n",
    "\n// graphemeCodePoints are taken from\n",
    "// https://www.unicode.org/Public/14.0.0/ucd/auxiliary/GraphemeBreakProperty.txt\n",
    "// and\n",
    "// https://unicode.org/Public/14.0.0/ucd/emoji/emoji-data.txt\n",
    "// (\"Extended_Pictographic\" only)\n",
    "// on September 10, 2022. See https://www.unicode.org/license.html for the Unicode\n",
    "// license agreement.\n",
    "var graphemeCodePoints = [][3]int{\n",
    "\t{0x000A,0x000A,prLF}, // Cc       <control-000A>\n",
    "{0x000D,0x000D,prCR}, // Cc       <control-000D>\n",
    "{0x00A9,0x00A9,prExtendedPictographic}, // E0.6   [1] (©)       copyright\n",
    "{0x0300,0x036F,prExtend}, // Mn [112] COMBINING GRAVE ACCENT\n",
    "}"].map lit).flatten

/-- The entries of the small files, in the order of the files and sorted. -/
def exampleUnsorted : List PropertyText :=
  [⟨lit "000D", lit "000D", lit "CR", lit "Cc       <control-000D>"⟩,
   ⟨lit "0300", lit "036F", lit "Extend", lit "Mn [112] COMBINING GRAVE ACCENT"⟩,
   ⟨lit "000A", lit "000A", lit "LF", lit "Cc       <control-000A>"⟩,
   ⟨lit "00A9", lit "00A9", lit "Extended_Pictographic", lit "E0.6   [1] (©)       copyright"⟩]
@[inherit_doc exampleUnsorted]
def exampleSorted : List PropertyText :=
  [⟨lit "000A", lit "000A", lit "LF", lit "Cc       <control-000A>"⟩,
   ⟨lit "000D", lit "000D", lit "CR", lit "Cc       <control-000D>"⟩,
   ⟨lit "00A9", lit "00A9", lit "Extended_Pictographic", lit "E0.6   [1] (©)       copyright"⟩,
   ⟨lit "0300", lit "036F", lit "Extend", lit "Mn [112] COMBINING GRAVE ACCENT"⟩]

/-- The hypotheses of `C74_source` hold for that run. -/
example : Generates exampleArgs exampleFetch (lit "September 10, 2022") (.source exampleSource) :=
  have h1 : parseFiles (mainInput exampleArgs exampleFetch) (emojiInput exampleArgs exampleFetch) =
      .ok exampleUnsorted := by decide +kernel
  have h2 : exampleSorted.Perm exampleUnsorted := by decide +kernel
  have h3 : exampleSorted.Pairwise fun a b => ¬ parseHex b.from_ < parseHex a.from_ := by decide +kernel
  have h4 : propertySource (exampleArgs.getD 3 []) (mainURL exampleArgs) (lit "September 10, 2022")
      (generatorFlags exampleArgs (lit "gencat")).isSome exampleSorted = some exampleSource := by decide +kernel
  have h5 : 5 ≤ exampleArgs.length := by decide +kernel
  .source exampleUnsorted exampleSorted exampleSource h5 h1 ⟨h2, h3⟩ h4

example : exampleArgs[3]? = some (lit "graphemeCodePoints") ∧ (∀ b ∈ lit "graphemeCodePoints", WordByte b) ∧
    0x0A ∉ exampleArgs.getD 1 [] := by decide +kernel

example : Sources exampleArgs exampleFetch (some exampleMain) (some (lit "Extended_Pictographic", exampleEmoji)) ∧
    ¬ ∃ v, GivenFlag exampleArgs (lit "gencat") v := by
  have h1 : generatorFlags exampleArgs (lit "emojis") = some (lit "Extended_Pictographic") := by decide +kernel
  have h2 : generatorFlags exampleArgs (lit "gencat") = none := by decide +kernel
  have h3 : mainInput exampleArgs exampleFetch = some exampleMain := by decide +kernel
  have h4 : emojiInput exampleArgs exampleFetch = some (lit "Extended_Pictographic", exampleEmoji) := by decide +kernel
  obtain ⟨m, e, h, _⟩ := C75_sources exampleArgs exampleFetch (by decide)
  rw [← mainInput_eq h (by decide), h3, ← emojiInput_eq h, h4] at h
  exact ⟨h, fun ⟨v, hv⟩ => by rw [(C75_flags _ _ _).mpr hv] at h2; cases h2⟩

/-- The table is the expected one. -/
example : goTokens exampleSource = some (tableTokens (lit "graphemeCodePoints") (lit "3")
      [[lit "0x000A", lit "0x000A", lit "prLF"], [lit "0x000D", lit "0x000D", lit "prCR"],
       [lit "0x00A9", lit "0x00A9", lit "prExtendedPictographic"], [lit "0x0300", lit "0x036F", lit "prExtend"]]) := by
  decide +kernel

/-- A comment is only read up to its line end: this one tries to end the table. -/
example : goTokens (lit "{0x000A,0x000A,prLF}, // } func init() { /* \n}") =
    some (["{", "0x000A", ",", "0x000A", ",", "prLF", "}", ",", "}", ";"].map lit) := by decide +kernel

/-- The name must not contain a line end: the rest of it would be code. -/
theorem C74_name_on_two_lines :
    goTokens (sourceHeader (lit "a\nvar b") [] (lit "today") (lit "3") ++ lit "}") ≠
      some (tableTokens (lit "a\nvar b") (lit "3") []) := by decide +kernel

/-- The header names the emoji file and `Extended_Pictographic` as a source even if neither was used: these are the
arguments of line 18, for which the first lines are those of /repo/runewidth/uniseg/eastasianwidth.go:1-12. -/
theorem C74_header_names_unused_file :
    let args := ["gen_properties", "EastAsianWidth", "eastasianwidth.go", "eastAsianWidth", "eastasianwidth"].map lit
    emojiInput args exampleFetch = none ∧
    propertySource (args.getD 3 []) (mainURL args) (lit "September 10, 2022") false [] = some ((["package uniseg\n",
    "\n// Code generated via go generate from gen_properties.go. DO NOT EDIT.\n",
    "\n// eastAsianWidth are taken from\n",
    "// https://www.unicode.org/Public/14.0.0/ucd/EastAsianWidth.txt\n",
    "// and\n",
    "// https://unicode.org/Public/14.0.0/ucd/emoji/emoji-data.txt\n",
    "// (\"Extended_Pictographic\" only)\n",
    "// on September 10, 2022. See https://www.unicode.org/license.html for the Unicode\n",
    "// license agreement.\n",
    "var eastAsianWidth = [][3]int{\n",
    "\t}"].map lit).flatten) := by
  decide +kernel

/-! ## C75 -/

/-- The files that are read contain only property lines where there is data, and there is at least one of them. -/
def FilesReadable (main : Option (List GoString)) (emoji : Option (GoString × List GoString)) : Prop :=
  (main ≠ none ∨ emoji ≠ none) ∧ ∀ line ∈ dataLines main emoji, ∃ f t p c, PropertyLine line f t p c

/-- The general category is asked for, and there is a comment too short to have one. -/
def ShortComment (args : List GoString) (main : Option (List GoString)) (emoji : Option (GoString × List GoString)) :
    Prop :=
  (∃ v, GivenFlag args (lit "gencat") v) ∧
    ∃ line ∈ dataLines main emoji, ∃ f t p c, PropertyLine line f t p c ∧ c.length < 3

theorem exists_texts (lines : List GoString) (h : ∀ line ∈ lines, ∃ f t p c, PropertyLine line f t p c) :
    ∃ ps, Texts lines ps := by
  induction lines with
  | nil => exact ⟨[], rfl, by simp⟩
  | cons line lines ih =>
    obtain ⟨f, t, p, c, hl⟩ := h line (by simp)
    obtain ⟨ps, hlen, hps⟩ := ih fun l hl => h l (by simp [hl])
    refine ⟨⟨f, t, p, c⟩ :: ps, by simp [hlen], ?_⟩
    intro i l q hi hq
    cases i with
    | zero =>
      simp only [List.getElem?_cons_zero, Option.some.injEq] at hi hq
      subst hi hq; exact hl
    | succ i => exact hps i l q (by simpa using hi) (by simpa using hq)

theorem exists_sortResult (ps : List PropertyText) : ∃ sorted, SortResult ps sorted := by
  refine ⟨ps.mergeSort (fun a b => decide (parseHex a.from_ ≤ parseHex b.from_)), List.mergeSort_perm _ _, ?_⟩
  have := List.pairwise_mergeSort (le := fun a b : PropertyText => decide (parseHex a.from_ ≤ parseHex b.from_))
    (by intro a b c; simp only [decide_eq_true_eq]; omega) (by intro a b; simp only [Bool.or_eq_true, decide_eq_true_eq]; omega) ps
  exact this.imp fun h => by simp only [decide_eq_true_eq] at h; omega

theorem propertySource_none (name url date : GoString) (gencat : Bool) (ps : List PropertyText) :
    propertySource name url date gencat ps = none ↔ gencat = true ∧ ∃ p ∈ ps, p.comment.length < 3 := by
  have h1 : ∀ p, sourceEntry gencat p = none ↔ gencat = true ∧ p.comment.length < 3 := by
    intro p
    unfold sourceEntry
    split
    · split
      · simp_all; omega
      · dsimp only
        split <;> simp_all
    · simp_all
  unfold propertySource
  rw [Option.map_eq_none_iff]
  induction ps with
  | nil => simp
  | cons p ps ih =>
    rw [List.mapM_cons]
    simp only [Option.bind_eq_bind, List.mem_cons]
    cases he : sourceEntry gencat p with
    | none =>
      have := (h1 p).mp he
      simp only [Option.bind_none, true_iff]
      exact ⟨this.1, p, by simp, this.2⟩
    | some t =>
      have hn : ¬ (gencat = true ∧ p.comment.length < 3) := fun h => by rw [(h1 p).mpr h] at he; simp at he
      have : (Option.bind (some t) fun b => (ps.mapM (sourceEntry gencat)).bind fun bs => pure (b :: bs)) = none ↔
          ps.mapM (sourceEntry gencat) = none := by cases ps.mapM (sourceEntry gencat) <;> simp
      refine this.trans (Iff.trans ih ?_)
      constructor
      · rintro ⟨a, q, hq, hl⟩; exact ⟨a, q, .inr hq, hl⟩
      · rintro ⟨a, q, rfl | hq, hl⟩
        · exact absurd ⟨a, hl⟩ hn
        · exact ⟨a, q, hq, hl⟩

theorem readable_iff (main : Option (List GoString)) (emoji : Option (GoString × List GoString)) :
    FilesReadable main emoji ↔ ∃ ps, parseFiles main emoji = .ok ps := by
  constructor
  · rintro ⟨h1, h2⟩
    obtain ⟨ps, hps⟩ := exists_texts _ h2
    exact ⟨ps, ((C64_parse _ _).1 ps).mpr ⟨h1, hps⟩⟩
  · rintro ⟨ps, h⟩
    obtain ⟨h1, hlen, htext⟩ := ((C64_parse _ _).1 ps).mp h
    refine ⟨h1, fun line hl => ?_⟩
    obtain ⟨i, hi⟩ := List.mem_iff_getElem?.mp hl
    have hil : i < ps.length := by rw [hlen]; exact (List.getElem?_eq_some_iff.mp hi).1
    exact ⟨_, _, _, _, htext i line _ hi (List.getElem?_eq_getElem hil)⟩

theorem short_iff (args : List GoString) (main : Option (List GoString)) (emoji : Option (GoString × List GoString))
    (ps sorted : List PropertyText) (hparse : parseFiles main emoji = .ok ps) (hsort : SortResult ps sorted) :
    ShortComment args main emoji ↔
      (generatorFlags args (lit "gencat")).isSome = true ∧ ∃ p ∈ sorted, p.comment.length < 3 := by
  obtain ⟨_, hlen, htext⟩ := ((C64_parse _ _).1 ps).mp hparse
  unfold ShortComment
  rw [Option.isSome_iff_exists, show (∃ v, GivenFlag args (lit "gencat") v) ↔
    ∃ a, generatorFlags args (lit "gencat") = some a from exists_congr fun v => (C75_flags _ _ _).symm]
  refine and_congr_right fun _ => ?_
  constructor
  · rintro ⟨line, hl, f, t, p, c, hp, hc⟩
    obtain ⟨i, hi⟩ := List.mem_iff_getElem?.mp hl
    have hil : i < ps.length := by rw [hlen]; exact (List.getElem?_eq_some_iff.mp hi).1
    have := htext i line _ hi (List.getElem?_eq_getElem hil)
    obtain ⟨_, _, _, rfl⟩ := hp.unique this
    exact ⟨ps[i], hsort.1.mem_iff.mpr (List.getElem_mem hil), hc⟩
  · rintro ⟨p, hp, hc⟩
    obtain ⟨i, hi⟩ := List.mem_iff_getElem?.mp (hsort.1.mem_iff.mp hp)
    have hil : i < (dataLines main emoji).length := by
      rw [← hlen]; exact (List.getElem?_eq_some_iff.mp hi).1
    exact ⟨_, List.getElem_mem hil, _, _, _, _, htext i _ p (List.getElem?_eq_getElem hil) hi, hc⟩

theorem outcomes (args : List GoString) (fetch : GoString → List GoString) (date : GoString) :
    (Generates args fetch date .notEnoughArguments ↔ args.length < 5) ∧
    (Generates args fetch date (.failed .nothing) ↔ 5 ≤ args.length ∧ args[1]? = some (lit "-") ∧
      ∀ v, GivenFlag args (lit "emojis") v → v = []) ∧
    ((∃ e, Generates args fetch date (.failed e)) ↔ 5 ≤ args.length ∧ ¬ FilesReadable (mainInput args fetch) (emojiInput args fetch)) ∧
    (Generates args fetch date .panicked ↔ 5 ≤ args.length ∧ FilesReadable (mainInput args fetch) (emojiInput args fetch) ∧ ShortComment args (mainInput args fetch) (emojiInput args fetch)) ∧
    ((∃ text, Generates args fetch date (.source text)) ↔
      5 ≤ args.length ∧ FilesReadable (mainInput args fetch) (emojiInput args fetch) ∧ ¬ ShortComment args (mainInput args fetch) (emojiInput args fetch)) := by
  refine ⟨⟨fun h => by cases h; assumption, .notEnough⟩, ?_, ?_, ?_, ?_⟩
  · have hm : ∀ hl : 5 ≤ args.length, mainInput args fetch = none ↔ args[1]? = some (lit "-") := by
      intro hl
      have h1 : args[1]? = some (args.getD 1 []) := by
        rw [List.getD_eq_getElem?_getD, List.getElem?_eq_getElem (by omega)]; rfl
      rw [h1]
      unfold mainInput mainURL
      generalize args.getD 1 [] = file
      by_cases hd : file = lit "-"
      · simp [hd]
      · have : propertyURL file ≠ [] := by
          unfold propertyURL
          have : lit "https://www.unicode.org/Public/14.0.0/ucd/" ≠ [] := by decide +kernel
          simp [this]
        simp only [ne_eq, hd, not_false_eq_true, if_true, this, Option.some.injEq, reduceCtorEq]
    have he : emojiInput args fetch = none ↔ ∀ v, generatorFlags args (lit "emojis") = some v → v = [] := by
      unfold emojiInput
      cases generatorFlags args (lit "emojis") with
      | none => simp
      | some v => simp
    simp only [← C75_flags]
    have hn : parseFiles (mainInput args fetch) (emojiInput args fetch) = .error .nothing ↔
        mainInput args fetch = none ∧ emojiInput args fetch = none := by
      unfold parseFiles
      split
      · rename_i h1 h2; simp [h1, h2]
      · rename_i hne
        constructor
        · intro h
          exfalso
          split at h
          · simp at h
          · split at h
            · simp at h
            · split at h <;> simp at h
        · rintro ⟨h1, h2⟩
          exact absurd h2 (hne h1)
    constructor
    · intro h
      cases h with
      | failed _ hl hp =>
        obtain ⟨h1, h2⟩ := hn.mp hp
        exact ⟨hl, (hm hl).mp h1, he.mp h2⟩
    · rintro ⟨hl, h1, h2⟩
      exact .failed _ hl (hn.mpr ⟨(hm hl).mpr h1, he.mpr h2⟩)
  · constructor
    · rintro ⟨e, h⟩
      cases h with
      | failed _ hl hp =>
        refine ⟨hl, ?_⟩
        rw [readable_iff]
        rintro ⟨ps, hps⟩
        rw [hp] at hps; simp at hps
    · rintro ⟨hl, h⟩
      rw [readable_iff] at h
      cases hp : parseFiles (mainInput args fetch) (emojiInput args fetch) with
      | error e => exact ⟨e, .failed e hl hp⟩
      | ok ps => exact absurd ⟨ps, hp⟩ h
  · constructor
    · intro h
      cases h with
      | panicked ps sorted hl hp hs hn =>
        exact ⟨hl, (readable_iff _ _).mpr ⟨ps, hp⟩, (short_iff _ _ _ _ _ hp hs).mpr ((propertySource_none _ _ _ _ _).mp hn)⟩
    · rintro ⟨hl, hr, hs⟩
      obtain ⟨ps, hp⟩ := (readable_iff _ _).mp hr
      obtain ⟨sorted, hsort⟩ := exists_sortResult ps
      exact .panicked ps sorted hl hp hsort ((propertySource_none _ _ _ _ _).mpr ((short_iff _ _ _ _ _ hp hsort).mp hs))
  · constructor
    · rintro ⟨text, h⟩
      cases h with
      | source ps sorted _ hl hp hs hn =>
        refine ⟨hl, (readable_iff _ _).mpr ⟨ps, hp⟩, fun hsc => ?_⟩
        rw [(propertySource_none _ _ _ _ _).mpr ((short_iff _ _ _ _ _ hp hs).mp hsc)] at hn
        simp at hn
    · rintro ⟨hl, hr, hs⟩
      obtain ⟨ps, hp⟩ := (readable_iff _ _).mp hr
      obtain ⟨sorted, hsort⟩ := exists_sortResult ps
      cases ht : propertySource (args.getD 3 []) (mainURL args) date (generatorFlags args (lit "gencat")).isSome sorted with
      | none => exact absurd ((short_iff _ _ _ _ _ hp hsort).mpr ((propertySource_none _ _ _ _ _).mp ht)) hs
      | some text => exact ⟨text, .source ps sorted text hl hp hsort ht⟩

/-- C75. How a run ends: too few arguments; nothing to read; a bad line (with its file and number by `C64_parse`); a
panic over a short comment, only if the general category is asked for; or a source text. Every run ends in exactly one
of these ways, whatever order the sort leaves. -/
theorem C75_outcomes (args : List GoString) (fetch : GoString → List GoString) (date : GoString)
    (main : Option (List GoString)) (emoji : Option (GoString × List GoString)) (hin : Sources args fetch main emoji) :
    (Generates args fetch date .notEnoughArguments ↔ args.length < 5) ∧
    (Generates args fetch date (.failed .nothing) ↔ 5 ≤ args.length ∧ args[1]? = some (lit "-") ∧
      ∀ v, GivenFlag args (lit "emojis") v → v = []) ∧
    ((∃ e, Generates args fetch date (.failed e)) ↔ 5 ≤ args.length ∧ ¬ FilesReadable main emoji) ∧
    (Generates args fetch date .panicked ↔ 5 ≤ args.length ∧ FilesReadable main emoji ∧ ShortComment args main emoji) ∧
    ((∃ text, Generates args fetch date (.source text)) ↔
      5 ≤ args.length ∧ FilesReadable main emoji ∧ ¬ ShortComment args main emoji) := by
  by_cases hl : 5 ≤ args.length
  · have := outcomes args fetch date
    rwa [mainInput_eq hin hl, emojiInput_eq hin] at this
  · refine ⟨⟨fun h => by cases h; assumption, .notEnough⟩, ⟨fun h => ?_, fun h => absurd h.1 hl⟩,
      ⟨fun h => ?_, fun h => absurd h.1 hl⟩, ⟨fun h => ?_, fun h => absurd h.1 hl⟩, ⟨fun h => ?_, fun h => absurd h.1 hl⟩⟩
    · cases h; contradiction
    · obtain ⟨_, h⟩ := h; cases h; contradiction
    · cases h; contradiction
    · obtain ⟨_, h⟩ := h; cases h; contradiction

/-- The panic occurs: a comment of two characters, with the general category asked for. -/
example : Generates (["g", "F", "f.go", "t", "g", "gencat"].map lit) (fun _ => [lit "0041 ; L # Lu"]) (lit "today") .panicked :=
  .panicked [⟨lit "0041", lit "0041", lit "L", lit "Lu"⟩] [⟨lit "0041", lit "0041", lit "L", lit "Lu"⟩]
    (by decide +kernel) (by decide +kernel) ⟨by decide +kernel, by decide +kernel⟩ (by decide +kernel)

/-- A flag `emojis=` without a property counts as none. -/
example : Generates (["g", "-", "f.go", "t", "g", "emojis="].map lit) (fun _ => []) (lit "today") (.failed .nothing) :=
  .failed _ (by decide +kernel) (by decide +kernel)

end GoTable
