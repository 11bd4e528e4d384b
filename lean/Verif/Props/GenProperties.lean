import Verif.Proofs.GenProperties
import Verif.Proofs.Trim
import Verif.Model.Grapheme
/-!
# C63, C64: the generator of the property tables
-/

namespace GoTable
open Spec

/-! ## C63 -/

/-- C63. A line is accepted exactly if it has the form of the Unicode data files, and then is cut into the parts it
is made of; these are determined by the line. -/
theorem C63_parse_line (line : GoString) :
    (∀ p : PropertyText, parseProperty line = some p ↔ PropertyLine line p.from_ p.to p.property p.comment) ∧
    (parseProperty line = none ↔ ¬ ∃ f t p c, PropertyLine line f t p c) ∧
    ∀ f1 t1 p1 c1 f2 t2 p2 c2, PropertyLine line f1 t1 p1 c1 → PropertyLine line f2 t2 p2 c2 →
      f1 = f2 ∧ t1 = t2 ∧ p1 = p2 ∧ c1 = c2 :=
  ⟨parseProperty_some line, parseProperty_none line, fun _ _ _ _ _ _ _ _ h1 h2 => h1.unique h2⟩

/-- A line of GraphemeBreakProperty.txt. -/
example : parseProperty (lit "0300..036F    ; Extend # Mn [112] COMBINING") =
    some ⟨lit "0300", lit "036F", lit "Extend", lit "Mn [112] COMBINING"⟩ ∧
    PropertyLine (lit "0300..036F    ; Extend # Mn [112] COMBINING") (lit "0300") (lit "036F") (lit "Extend")
      (lit "Mn [112] COMBINING") := by
  have h : parseProperty (lit "0300..036F    ; Extend # Mn [112] COMBINING") =
    some ⟨lit "0300", lit "036F", lit "Extend", lit "Mn [112] COMBINING"⟩ := by decide +kernel
  exact ⟨h, ((C63_parse_line _).1 _).mp h⟩

/-- A range without comment is not accepted; nor is a code point of three digits. -/
example : parseProperty (lit "0300..036F ; Extend") = none ∧ parseProperty (lit "300 ; Extend # x") = none := by
  decide +kernel

/-! ## C64 -/

/-- The lines of the first file that carry data: without surrounding white space neither empty nor a comment. -/
def MainData (text : GoString) : Prop := trimSpace text ≠ [] ∧ (trimSpace text).head? ≠ some 0x23

/-- The lines of the emoji file that count: not a comment, with the property named somewhere. -/
def EmojiData (property line : GoString) : Prop := line ≠ [] ∧ line.head? ≠ some 0x23 ∧ property <:+: line

instance (text : GoString) : Decidable (MainData text) := by unfold MainData; infer_instance
instance (property line : GoString) : Decidable (EmojiData property line) := by unfold EmojiData; infer_instance

theorem trimFront_spec (encs : List GoString) (s : GoString) :
    (∃ l : List GoString, (∀ e ∈ l, e ∈ encs) ∧ s = l.flatten ++ trimFront encs s) ∧
    ∀ e ∈ encs, e ≠ [] → ¬ e <+: trimFront encs s := by
  fun_induction trimFront encs s with
  | case1 s h =>
    refine ⟨⟨[], by simp, by simp⟩, fun e he hne hp => ?_⟩
    rw [List.find?_eq_none] at h
    have := h e he
    simp [hne, hp] at this
  | case2 s e h hlt ih =>
    obtain ⟨⟨l, hl, e1⟩, h2⟩ := ih
    refine ⟨⟨e :: l, ?_, ?_⟩, h2⟩
    · intro x hx
      rcases List.mem_cons.mp hx with rfl | hx
      · exact List.mem_of_find?_eq_some h
      · exact hl x hx
    · have hp := List.find?_some h
      simp only [Bool.and_eq_true, List.isPrefixOf_iff_prefix] at hp
      obtain ⟨t, rfl⟩ := hp.1
      rw [List.drop_left] at e1 ⊢
      rw [List.flatten_cons, List.append_assoc, ← e1]
  | case3 s e h hlt =>
    exfalso
    have hp := List.find?_some h
    simp only [Bool.and_eq_true, List.isPrefixOf_iff_prefix] at hp
    obtain ⟨⟨t, rfl⟩, hne⟩ := hp
    apply hlt
    cases e with
    | nil => simp at hne
    | cons b e => simp; omega

/-- C64. Trimming takes all white space off both ends; there is one way to do that. -/
theorem C64_trim (s t : GoString) : trimSpace s = t ↔ Trimmed s t := by
  suffices Trimmed s (trimSpace s) from ⟨fun h => h ▸ this, fun h => trimmed_unique this h⟩
  rw [trimmed_iff]
  have hne : ∀ e ∈ spaceEncodings, e ≠ [] := by decide +kernel
  obtain ⟨⟨a, ha, e1⟩, h1⟩ := trimFront_spec spaceEncodings s
  obtain ⟨⟨b, hb, e2⟩, h2⟩ := trimFront_spec (spaceEncodings.map List.reverse) (trimFront spaceEncodings s).reverse
  have e3 : trimFront spaceEncodings s = trimSpace s ++ (b.reverse.map List.reverse).flatten := by
    have := congrArg List.reverse e2
    rw [List.reverse_reverse, List.reverse_append] at this
    rw [this, List.reverse_flatten, List.map_reverse]
    rfl
  refine ⟨⟨a, b.reverse.map List.reverse, ?_, ?_⟩, fun e he hs => ?_, fun e he hp => ?_⟩
  · intro e he
    rcases List.mem_append.mp he with he | he
    · exact ha e he
    · obtain ⟨x, hx, rfl⟩ := List.mem_map.mp he
      obtain ⟨y, hy, rfl⟩ := List.mem_map.mp (hb x (List.mem_reverse.mp hx))
      rw [List.reverse_reverse]; exact hy
  · rw [List.append_assoc, ← e3, ← e1]
  · refine h2 e.reverse (List.mem_map_of_mem he) (by simpa using hne e he) ?_
    rw [← List.reverse_prefix] at hs
    unfold trimSpace at hs
    rwa [List.reverse_reverse] at hs
  · refine h1 e he (hne e he) ?_
    rw [e3]
    exact hp.trans (List.prefix_append _ _)

/-- A line with a no-break space in front, and a space, an ideographic space and a tab at the end. -/
example : Trimmed ([0xC2, 0xA0] ++ lit "0300 ; x" ++ [0x20, 0xE3, 0x80, 0x80, 0x09]) (lit "0300 ; x") :=
  (C64_trim _ _).mp (by decide +kernel)

/-- The loops over lines, for any test and preparation of lines. -/
def parseLines (data : GoString → Bool) (prep : GoString → GoString) : List GoString → Nat → Except Nat (List PropertyText)
  | [], _ => .ok []
  | text :: lines, num =>
    if data text then
      match parseProperty (prep text) with
      | none => .error num
      | some p =>
        match parseLines data prep lines (num + 1) with
        | .error n => .error n
        | .ok ps => .ok (p :: ps)
    else parseLines data prep lines (num + 1)

theorem hash_prefix (line : GoString) : (lit "#").isPrefixOf line = true ↔ line.head? = some 0x23 := by
  rw [show lit "#" = [0x23] by decide +kernel]
  cases line with
  | nil => simp
  | cons b t => simp only [List.isPrefixOf, Bool.and_true, beq_iff_eq, List.head?_cons, Option.some.injEq]; exact eq_comm

theorem containsText_iff (s sub : GoString) : containsText s sub = true ↔ sub <:+: s := by
  induction s with
  | nil => simp [containsText]
  | cons b t ih =>
    rw [containsText, Bool.or_eq_true, ih, List.isPrefixOf_iff_prefix, List.infix_cons_iff]

theorem parseMainLines_eq (lines : List GoString) (num : Nat) :
    parseMainLines lines num = parseLines (fun t => decide (MainData t)) trimSpace lines num := by
  induction lines generalizing num with
  | nil => rfl
  | cons t lines ih =>
    rw [parseMainLines, parseLines]
    rw [ih]
    have : ((lit "#").isPrefixOf (trimSpace t) || (trimSpace t).isEmpty) = !decide (MainData t) := by
      have h1 := hash_prefix (trimSpace t)
      rw [Bool.eq_iff_iff]
      rw [Bool.not_eq_true', decide_eq_false_iff_not, Bool.or_eq_true, h1, List.isEmpty_iff]
      unfold MainData
      tauto
    rw [this]
    cases decide (MainData t) <;> rfl

theorem parseEmojiLines_eq (prop : GoString) (lines : List GoString) (num : Nat) :
    parseEmojiLines prop lines num = parseLines (fun t => decide (EmojiData prop t)) id lines num := by
  induction lines generalizing num with
  | nil => rfl
  | cons t lines ih =>
    rw [parseEmojiLines, parseLines]
    rw [ih]
    have : ((lit "#").isPrefixOf t || t.isEmpty || !containsText t prop) = !decide (EmojiData prop t) := by
      have h1 := hash_prefix t
      have h2 := containsText_iff t prop
      rw [Bool.eq_iff_iff]
      simp only [Bool.or_eq_true, h1, List.isEmpty_iff, Bool.not_eq_true', decide_eq_false_iff_not, EmojiData, not_and_or,
        not_not, ne_eq, ← h2, Bool.not_eq_true]
      rw [or_assoc, or_left_comm]
    rw [this]
    cases decide (EmojiData prop t) <;> rfl

/-- The property texts of the lines in order. -/
def Texts (lines : List GoString) (ps : List PropertyText) : Prop :=
  ps.length = lines.length ∧ ∀ (i : Nat) line p, lines[i]? = some line → ps[i]? = some p →
    PropertyLine line p.from_ p.to p.property p.comment

theorem parseLines_ok (data : GoString → Bool) (prep : GoString → GoString) (lines : List GoString) (num : Nat)
    (ps : List PropertyText) :
    parseLines data prep lines num = .ok ps ↔ Texts ((lines.filter data).map prep) ps := by
  induction lines generalizing num ps with
  | nil =>
    simp only [parseLines, Texts, List.filter_nil, List.map_nil, List.length_nil, List.length_eq_zero_iff]
    constructor
    · intro h; cases h; simp
    · rintro ⟨rfl, _⟩; rfl
  | cons t lines ih =>
    rw [parseLines, List.filter_cons]
    cases hd : data t with
    | false => simpa using ih (num + 1) ps
    | true =>
      simp only [if_true, List.map_cons]
      constructor
      · intro h
        split at h
        · cases h
        · rename_i p hp
          split at h
          · cases h
          · rename_i qs hq
            cases h
            obtain ⟨h1, h2⟩ := (ih (num + 1) qs).mp hq
            refine ⟨by simp [h1], fun i line q hl hp' => ?_⟩
            cases i with
            | zero =>
              simp only [List.getElem?_cons_zero, Option.some.injEq] at hl hp'
              subst hl hp'
              exact (parseProperty_some _ _).mp hp
            | succ i => exact h2 i line q (by simpa using hl) (by simpa using hp')
      · rintro ⟨h1, h2⟩
        cases ps with
        | nil => simp at h1
        | cons p ps =>
          rw [(parseProperty_some (prep t) p).mpr (h2 0 _ p rfl rfl)]
          dsimp only
          rw [(ih (num + 1) ps).mpr ⟨by simpa using h1, fun i line q hl hq => h2 (i + 1) line q (by simpa using hl) (by simpa using hq)⟩]

/-- Line `n` (counted from 1) is the first line with data that is not a property line. -/
def FirstBad (data : GoString → Prop) (prep : GoString → GoString) (lines : List GoString) (n : Nat) : Prop :=
  1 ≤ n ∧ (∃ text, lines[n - 1]? = some text ∧ data text ∧ ¬ ∃ f t p c, PropertyLine (prep text) f t p c) ∧
  ∀ m, m < n - 1 → ∀ text, lines[m]? = some text → data text → ∃ f t p c, PropertyLine (prep text) f t p c

theorem parseLines_ge (data : GoString → Bool) (prep : GoString → GoString) (lines : List GoString) (num n : Nat)
    (h : parseLines data prep lines num = .error n) : num ≤ n := by
  induction lines generalizing num n with
  | nil => simp [parseLines] at h
  | cons t lines ih =>
    rw [parseLines] at h
    split at h
    · split at h
      · cases h; omega
      · split at h
        · rename_i m hm
          cases h
          have := ih _ _ hm; omega
        · cases h
    · have := ih _ _ h; omega

theorem Texts_append {a b : List GoString} {ps : List PropertyText} (h : Texts (a ++ b) ps) :
    Texts a (ps.take a.length) ∧ Texts b (ps.drop a.length) := by
  obtain ⟨h1, h2⟩ := h
  rw [List.length_append] at h1
  refine ⟨⟨by simp; omega, fun i line p hl hp => ?_⟩, ⟨by simp; omega, fun i line p hl hp => ?_⟩⟩
  · have hi : i < a.length := (List.getElem?_eq_some_iff.mp hl).1
    refine h2 i line p (by rw [List.getElem?_append_left hi, hl]) ?_
    rwa [List.getElem?_take_of_lt hi] at hp
  · refine h2 (a.length + i) line p (by rw [List.getElem?_append_right (by omega), Nat.add_sub_cancel_left, hl]) ?_
    rwa [List.getElem?_drop] at hp

theorem Texts_append_mk {a b : List GoString} {ps qs : List PropertyText} (h1 : Texts a ps) (h2 : Texts b qs) :
    Texts (a ++ b) (ps ++ qs) := by
  refine ⟨by simp [h1.1, h2.1], fun i line p hl hp => ?_⟩
  by_cases hi : i < a.length
  · rw [List.getElem?_append_left hi] at hl
    rw [List.getElem?_append_left (by rw [h1.1]; exact hi)] at hp
    exact h1.2 i line p hl hp
  · rw [List.getElem?_append_right (by omega)] at hl
    rw [List.getElem?_append_right (by rw [h1.1]; omega), h1.1] at hp
    exact h2.2 _ line p hl hp

theorem parseLines_error (data : GoString → Prop) [DecidablePred data] (prep : GoString → GoString)
    (lines : List GoString) (num n : Nat) :
    parseLines (fun t => decide (data t)) prep lines num = .error (n + num) ↔ FirstBad data prep lines (n + 1) := by
  induction lines generalizing num n with
  | nil => simp [parseLines, FirstBad]
  | cons t lines ih =>
    rw [parseLines]
    have hshift : ∀ n, (FirstBad data prep (t :: lines) (n + 1 + 1) ↔
        (data t → ∃ f t' p c, PropertyLine (prep t) f t' p c) ∧ FirstBad data prep lines (n + 1)) := by
      intro n
      unfold FirstBad
      simp only [Nat.add_sub_cancel, Nat.le_add_left, true_and, List.getElem?_cons_succ]
      constructor
      · rintro ⟨h1, h2⟩
        exact ⟨h2 0 (by omega) t rfl, h1, fun m hm text ht => h2 (m + 1) (by omega) text (by simpa using ht)⟩
      · rintro ⟨h0, h1, h2⟩
        refine ⟨h1, fun m hm text ht => ?_⟩
        cases m with
        | zero => simp only [List.getElem?_cons_zero, Option.some.injEq] at ht; subst ht; exact h0
        | succ m => exact h2 m (by omega) text (by simpa using ht)
    have hzero : FirstBad data prep (t :: lines) (0 + 1) ↔ data t ∧ ¬ ∃ f t' p c, PropertyLine (prep t) f t' p c := by
      simp [FirstBad]
    have hge := parseLines_ge (fun t => decide (data t)) prep
    by_cases hd : data t
    · simp only [hd, decide_true, if_true]
      cases hp : parseProperty (prep t) with
      | none =>
        have hbad := (parseProperty_none _).mp hp
        dsimp only
        cases n with
        | zero => rw [hzero]; simp [hd, hbad]
        | succ n =>
          rw [hshift]
          simp only [hd, hbad, forall_const, false_and, iff_false]
          intro h
          have := Except.error.inj h
          omega
      | some p =>
        have hgood : ∃ f t' p c, PropertyLine (prep t) f t' p c := ⟨_, _, _, _, (parseProperty_some _ _).mp hp⟩
        dsimp only
        cases n with
        | zero =>
          rw [hzero]
          simp only [hgood, not_true, and_false, iff_false]
          intro h
          split at h
          · rename_i m hm
            cases h
            have := hge _ _ _ hm
            omega
          · cases h
        | succ n =>
          rw [hshift, ← ih (num + 1) n, show n + 1 + num = n + (num + 1) by omega]
          simp only [hgood, implies_true, true_and]
          split
          · rename_i m hm; rw [hm]
          · rename_i ps hm; rw [hm]; simp
    · simp only [hd, decide_false, Bool.false_eq_true, if_false]
      cases n with
      | zero =>
        rw [hzero]
        simp only [hd, false_and, iff_false]
        intro h
        have := hge _ _ _ h
        omega
      | succ n =>
        rw [hshift, ← ih (num + 1) n, show n + 1 + num = n + (num + 1) by omega]
        simp [hd]

/-- All lines with data, trimmed where the generator trims. -/
def dataLines (mainLines : Option (List GoString)) (emoji : Option (GoString × List GoString)) : List GoString :=
  (((mainLines.getD []).filter fun t => decide (MainData t)).map trimSpace) ++
    match emoji with
    | none => []
    | some (prop, lines) => lines.filter fun t => decide (EmojiData prop t)

/-- C64. Parsing succeeds exactly if a file is given and all lines with data are property lines, and gives their
parts in order. Otherwise the error names the first file with a bad line and the number of the first one. -/
theorem C64_parse (mainLines : Option (List GoString)) (emoji : Option (GoString × List GoString)) :
    (∀ ps, parseFiles mainLines emoji = .ok ps ↔
      (mainLines ≠ none ∨ emoji ≠ none) ∧ Texts (dataLines mainLines emoji) ps) ∧
    (∀ n, parseFiles mainLines emoji = .error (.main n) ↔ FirstBad MainData trimSpace (mainLines.getD []) n) ∧
    (∀ n, parseFiles mainLines emoji = .error (.emoji n) ↔
      (∃ ps, Texts (dataLines mainLines none) ps) ∧ ∃ prop lines, emoji = some (prop, lines) ∧
        FirstBad (EmojiData prop) id lines n) := by
  have hmain : ∀ n, parseMainLines (mainLines.getD []) 1 = .error n ↔ FirstBad MainData trimSpace (mainLines.getD []) n := by
    intro n
    rw [parseMainLines_eq]
    cases n with
    | zero =>
      constructor
      · intro h
        have := parseLines_ge _ _ _ _ _ h
        omega
      · intro h; have := h.1; omega
    | succ n => exact parseLines_error MainData trimSpace _ 1 n
  have hemoji : ∀ prop lines n, parseEmojiLines prop lines 1 = .error n ↔ FirstBad (EmojiData prop) id lines n := by
    intro prop lines n
    rw [parseEmojiLines_eq]
    cases n with
    | zero =>
      constructor
      · intro h
        have := parseLines_ge _ _ _ _ _ h
        omega
      · intro h; have := h.1; omega
    | succ n => exact parseLines_error (EmojiData prop) id _ 1 n
  have hmainok : ∀ ps, parseMainLines (mainLines.getD []) 1 = .ok ps ↔ Texts (dataLines mainLines none) ps := by
    intro ps
    rw [parseMainLines_eq, parseLines_ok, dataLines, List.append_nil]
  have hemojiok : ∀ prop lines ps, parseEmojiLines prop lines 1 = .ok ps ↔
      Texts (lines.filter fun t => decide (EmojiData prop t)) ps := by
    intro prop lines ps
    rw [parseEmojiLines_eq, parseLines_ok, List.map_id]
  by_cases hnone : mainLines = none ∧ emoji = none
  · obtain ⟨rfl, rfl⟩ := hnone
    refine ⟨fun ps => ?_, fun n => ?_, fun n => ?_⟩
    · simp [parseFiles]
    · simp [parseFiles, FirstBad]
    · simp [parseFiles]
  have hgiven : mainLines ≠ none ∨ emoji ≠ none := by tauto
  have hfiles : parseFiles mainLines emoji =
      match parseMainLines (mainLines.getD []) 1 with
      | .error n => .error (.main n)
      | .ok ps =>
        match emoji with
        | none => .ok ps
        | some (prop, lines) =>
          match parseEmojiLines prop lines 1 with
          | .error n => .error (.emoji n)
          | .ok qs => .ok (ps ++ qs) := by
    unfold parseFiles
    cases mainLines <;> cases emoji <;> first | rfl | simp at hnone
  rw [hfiles]
  simp only [hgiven, true_and]
  cases hm : parseMainLines (mainLines.getD []) 1 with
  | error k =>
    have hno : ∀ ps, ¬ Texts (dataLines mainLines none) ps := by
      intro ps h
      rw [(hmainok ps).mpr h] at hm
      cases hm
    refine ⟨fun ps => ?_, fun n => ?_, fun n => ?_⟩
    · simp only [reduceCtorEq, false_iff]
      intro h
      have hdl : ∃ l, dataLines mainLines emoji = dataLines mainLines none ++ l := by
        cases emoji <;> simp [dataLines]
      obtain ⟨l, hdl⟩ := hdl
      rw [hdl] at h
      exact hno _ (Texts_append h).1
    · rw [← hmain, hm]; simp
    · simp [hno]
  | ok ps0 =>
    have hps0 := (hmainok ps0).mp hm
    have hnb : ∀ n, ¬ FirstBad MainData trimSpace (mainLines.getD []) n := by
      intro n h
      rw [(hmain n).mpr h] at hm
      cases hm
    cases emoji with
    | none =>
      refine ⟨fun ps => ?_, fun n => ?_, fun n => ?_⟩
      · dsimp only
        rw [← hmainok, hm]
        simp
      · simp [hnb]
      · simp
    | some e =>
      obtain ⟨prop, lines⟩ := e
      have hdl : dataLines mainLines (some (prop, lines)) =
          dataLines mainLines none ++ lines.filter fun t => decide (EmojiData prop t) := by
        simp [dataLines]
      dsimp only
      cases he : parseEmojiLines prop lines 1 with
      | error k =>
        refine ⟨fun ps => ?_, fun n => ?_, fun n => ?_⟩
        · simp only [reduceCtorEq, false_iff]
          intro h
          rw [hdl] at h
          rw [(hemojiok _ _ _).mpr (Texts_append h).2] at he
          cases he
        · simp [hnb]
        · simp only [Except.error.injEq, GenError.emoji.injEq, Option.some.injEq, Prod.mk.injEq]
          constructor
          · rintro rfl
            exact ⟨⟨ps0, hps0⟩, prop, lines, ⟨rfl, rfl⟩, (hemoji _ _ _).mp he⟩
          · rintro ⟨_, _, _, ⟨rfl, rfl⟩, h⟩
            rw [← hemoji, he] at h
            exact Except.error.inj h
      | ok qs =>
        have hqs := (hemojiok _ _ _).mp he
        refine ⟨fun ps => ?_, fun n => ?_, fun n => ?_⟩
        · rw [hdl]
          simp only [Except.ok.injEq]
          constructor
          · rintro rfl
            exact Texts_append_mk hps0 hqs
          · intro h
            obtain ⟨h1, h2⟩ := Texts_append h
            rw [← hmainok, hm] at h1
            rw [← hemojiok, he] at h2
            have e1 := Except.ok.inj h1
            have e2 := Except.ok.inj h2
            rw [e1, e2]
            exact List.take_append_drop _ _
        · simp [hnb]
        · simp only [reduceCtorEq, false_iff]
          rintro ⟨_, _, _, h1, h2⟩
          cases h1
          rw [← hemoji, he] at h2
          cases h2

/-- Some of a small main file and a small emoji file. -/
def exampleMain : List GoString :=
  ["# GraphemeBreakProperty", "", "000D          ; CR # Cc       <control-000D>",
   "0300..036F    ; Extend # Mn [112] COMBINING GRAVE ACCENT  ", "  000A          ; LF # Cc       <control-000A>"].map lit

def exampleEmoji : List GoString :=
  ["0023          ; Emoji                # E0.0   [1] (#)       hash sign",
   "00A9          ; Extended_Pictographic# E0.6   [1] (©)       copyright"].map lit

theorem hexNumber_eq (s : GoString) (h : ∀ b ∈ s, HexDigit b) : parseHex s = hexNumber s := by
  have hd : ∀ b, HexDigit b → hexValue b = hexDigitValue b := by
    intro b hb
    unfold HexDigit at hb
    unfold hexValue hexDigitValue
    rcases hb with hb | hb
    · rw [if_pos hb, if_pos hb.2]
    · rw [if_neg (by omega), if_pos hb, if_neg (by omega)]
      omega
  have key : ∀ (s : GoString) (n : Nat), (∀ b ∈ s, HexDigit b) →
      s.foldl (fun n b => n * 16 + hexValue b) n = n * 16 ^ s.length + hexNumber s := by
    intro s
    induction s with
    | nil => simp [hexNumber]
    | cons b t ih =>
      intro n h
      rw [List.foldl_cons, ih _ (fun c hc => h c (by simp [hc])), hexNumber, hd b (h b (by simp)), List.length_cons,
        Nat.pow_succ, Nat.add_mul, Nat.mul_assoc, Nat.mul_comm 16, Nat.add_assoc]
  rw [parseHex, key s 0 h]
  simp

/-- The value the generated source gives to a property name, if it compiles. -/
def constantOf (property : GoString) : Option Nat := propertyConstants.idxOf? (lit "pr" ++ property.filter (· != 0x5F))

/-- The ranges of all lines are non-empty and no code point is in two of them. -/
def DisjointLines (lines : List GoString) : Prop :=
  (∀ line ∈ lines, ∀ f t p c, PropertyLine line f t p c → hexNumber f ≤ hexNumber t) ∧
  ∀ (i j : Nat) line line', i < j → lines[i]? = some line → lines[j]? = some line' →
    ∀ f t p c f' t' p' c', PropertyLine line f t p c → PropertyLine line' f' t' p' c' →
      hexNumber t < hexNumber f' ∨ hexNumber t' < hexNumber f

/-- C64. Whatever order the (unstable) sort leaves, looking a code point up in the generated table gives the property
of the line that lists it, and 0 if none does, provided the lines list no code point twice. -/
theorem C64_table (mainLines : Option (List GoString)) (emoji : Option (GoString × List GoString))
    (ps sorted : List PropertyText) (table : List (Nat × Nat × Nat))
    (hparse : parseFiles mainLines emoji = .ok ps) (hsort : SortResult ps sorted)
    (hcompile : compileTable sorted = some table) (hdis : DisjointLines (dataLines mainLines emoji)) (r : Nat) :
    (∀ line ∈ dataLines mainLines emoji, ∀ f t p c, PropertyLine line f t p c →
      hexNumber f ≤ r → r ≤ hexNumber t → constantOf p = some (property table r)) ∧
    ((∀ line ∈ dataLines mainLines emoji, ∀ f t p c, PropertyLine line f t p c →
      ¬ (hexNumber f ≤ r ∧ r ≤ hexNumber t)) → property table r = 0) := by
  obtain ⟨_, hlen, htext⟩ := ((C64_parse mainLines emoji).1 ps).mp hparse
  generalize dataLines mainLines emoji = lines at *
  obtain ⟨hne, hdj⟩ := hdis
  have hline : ∀ (i : Nat) p, ps[i]? = some p → ∃ line, lines[i]? = some line ∧
      PropertyLine line p.from_ p.to p.property p.comment := by
    intro i p hp
    have hi : i < lines.length := by rw [← hlen]; exact (List.getElem?_eq_some_iff.mp hp).1
    exact ⟨lines[i], List.getElem?_eq_getElem hi, htext i _ p (List.getElem?_eq_getElem hi) hp⟩
  have hhex : ∀ p ∈ ps, parseHex p.from_ = hexNumber p.from_ ∧ parseHex p.to = hexNumber p.to ∧
      hexNumber p.from_ ≤ hexNumber p.to := by
    intro p hp
    obtain ⟨i, hi⟩ := List.mem_iff_getElem?.mp hp
    obtain ⟨line, hl, hpl⟩ := hline i p hi
    have hh := hne line (List.mem_iff_getElem?.mpr ⟨i, hl⟩) _ _ _ _ hpl
    obtain ⟨_, _, _, _, _, _, _, hf, ht, _⟩ := hpl
    exact ⟨hexNumber_eq _ hf.2.2, hexNumber_eq _ ht.2.2, hh⟩
  have hpw : ps.Pairwise fun a b => hexNumber a.to < hexNumber b.from_ ∨ hexNumber b.to < hexNumber a.from_ := by
    rw [List.pairwise_iff_getElem]
    intro i j hi hj hij
    obtain ⟨l1, h1, h1'⟩ := hline i _ (List.getElem?_eq_getElem hi)
    obtain ⟨l2, h2, h2'⟩ := hline j _ (List.getElem?_eq_getElem hj)
    exact hdj i j l1 l2 hij h1 h2 _ _ _ _ _ _ _ _ h1' h2'
  have hpw' : sorted.Pairwise fun a b => hexNumber a.to < hexNumber b.from_ ∨ hexNumber b.to < hexNumber a.from_ :=
    (hsort.1.pairwise_iff (fun h => h.symm)).mpr hpw
  have hmem : ∀ p, p ∈ sorted ↔ p ∈ ps := fun p => hsort.1.mem_iff
  have hord : sorted.Pairwise fun a b => hexNumber a.to < hexNumber b.from_ := by
    have := hsort.2.and hpw'
    rw [List.pairwise_iff_getElem] at this ⊢
    intro i j hi hj hij
    obtain ⟨h1, h2⟩ := this i j hi hj hij
    have ha := hhex sorted[i] ((hmem _).mp (List.getElem_mem hi))
    have hb := hhex sorted[j] ((hmem _).mp (List.getElem_mem hj))
    rw [ha.1, hb.1] at h1
    have := ha.2.2; have := hb.2.2
    omega
  -- the compiled table
  have hcomp : ∀ (l : List PropertyText) (t : List (Nat × Nat × Nat)), compileTable l = some t →
      (ranges t = l.map fun p => (parseHex p.from_, parseHex p.to)) ∧
      (∀ p ∈ l, ∃ e ∈ t, e.1 = parseHex p.from_ ∧ e.2.1 = parseHex p.to ∧ constantOf p.property = some e.2.2) ∧
      ∀ e ∈ t, ∃ p ∈ l, e.1 = parseHex p.from_ ∧ e.2.1 = parseHex p.to := by
    intro l
    induction l with
    | nil =>
      intro t h
      simp only [compileTable, List.mapM_nil] at h
      cases h
      simp [ranges]
    | cons p l ih =>
      intro t h
      simp only [compileTable, List.mapM_cons, Option.bind_eq_bind] at h
      cases hc : compileEntry p with
      | none => rw [hc] at h; cases h
      | some e =>
        rw [hc] at h
        cases hl : l.mapM compileEntry with
        | none => rw [hl] at h; cases h
        | some t' =>
          rw [hl] at h
          cases h
          obtain ⟨i1, i2, i3⟩ := ih t' hl
          unfold compileEntry at hc
          rw [Option.map_eq_some_iff] at hc
          obtain ⟨c, hc, rfl⟩ := hc
          refine ⟨by simpa [ranges] using i1, ?_, ?_⟩
          · intro q hq
            rcases List.mem_cons.mp hq with rfl | hq
            · exact ⟨_, List.mem_cons_self, rfl, rfl, hc⟩
            · obtain ⟨e, he, h⟩ := i2 q hq
              exact ⟨e, List.mem_cons_of_mem _ he, h⟩
          · intro e he
            rcases List.mem_cons.mp he with rfl | he
            · exact ⟨p, List.mem_cons_self, rfl, rfl⟩
            · obtain ⟨q, hq, h⟩ := i3 e he
              exact ⟨q, List.mem_cons_of_mem _ hq, h⟩
  obtain ⟨c1, c2, c3⟩ := hcomp sorted table hcompile
  have hs : SortedIntervals (ranges table) := by
    rw [c1]
    constructor
    · intro e he
      obtain ⟨p, hp, rfl⟩ := List.mem_map.mp he
      obtain ⟨h1, h2, h3⟩ := hhex p ((hmem p).mp hp)
      dsimp only
      rw [h1, h2]
      exact h3
    · rw [List.pairwise_map]
      refine hord.imp_of_mem fun {a b} ha hb h => ?_
      dsimp only
      rw [(hhex a ((hmem a).mp ha)).2.1, (hhex b ((hmem b).mp hb)).1]
      exact h
  constructor
  · intro line hl f t p c hpl h1 h2
    obtain ⟨i, hi⟩ := List.mem_iff_getElem?.mp hl
    have hil : i < ps.length := by rw [hlen]; exact (List.getElem?_eq_some_iff.mp hi).1
    have hp := htext i line _ hi (List.getElem?_eq_getElem hil)
    obtain ⟨e1, e2, e3, _⟩ := hpl.unique hp
    obtain ⟨e, he, h3, h4, h5⟩ := c2 ps[i] ((hmem _).mpr (List.getElem_mem hil))
    have hh := hhex ps[i] (List.getElem_mem hil)
    rw [e3, h5, property_eq_of_mem table hs e he r (by rw [h3, hh.1, ← e1]; exact h1) (by rw [h4, hh.2.1, ← e2]; exact h2)]
  · intro h
    apply property_eq_zero_of_not_mem table hs r
    intro e he hin
    obtain ⟨p, hp, h1, h2⟩ := c3 e he
    have hp' := (hmem p).mp hp
    obtain ⟨i, hi⟩ := List.mem_iff_getElem?.mp hp'
    obtain ⟨line, hl, hpl⟩ := hline i p hi
    have hh := hhex p hp'
    rw [h1, h2, hh.1, hh.2.1] at hin
    exact h line (List.mem_iff_getElem?.mpr ⟨i, hl⟩) _ _ _ _ hpl hin

/-- C64. The generated source compiles exactly if every property named in the data, prefixed with `pr` and without its
underscores, is one of the constants of the package. -/
theorem C64_compiles (mainLines : Option (List GoString)) (emoji : Option (GoString × List GoString))
    (ps sorted : List PropertyText) (hparse : parseFiles mainLines emoji = .ok ps) (hsort : SortResult ps sorted) :
    (compileTable sorted).isSome = true ↔
      ∀ line ∈ dataLines mainLines emoji, ∀ f t p c, PropertyLine line f t p c → constantOf p ≠ none := by
  obtain ⟨_, hlen, htext⟩ := ((C64_parse mainLines emoji).1 ps).mp hparse
  have hall : ∀ l : List PropertyText, (compileTable l).isSome = true ↔ ∀ p ∈ l, constantOf p.property ≠ none := by
    intro l
    induction l with
    | nil => simp [compileTable]
    | cons p l ih =>
      have hc : compileEntry p = (constantOf p.property).map fun c => (parseHex p.from_, parseHex p.to, c) := rfl
      simp only [compileTable, List.mapM_cons, Option.bind_eq_bind, List.mem_cons, forall_eq_or_imp] at ih ⊢
      rw [← ih, hc]
      cases constantOf p.property with
      | none => simp
      | some c => cases l.mapM compileEntry <;> simp
  rw [hall]
  constructor
  · intro h line hl f t p c hpl
    obtain ⟨i, hi⟩ := List.mem_iff_getElem?.mp hl
    have hil : i < ps.length := by rw [hlen]; exact (List.getElem?_eq_some_iff.mp hi).1
    have hp := htext i line _ hi (List.getElem?_eq_getElem hil)
    obtain ⟨_, _, rfl, _⟩ := hpl.unique hp
    exact h _ (hsort.1.mem_iff.mpr (List.getElem_mem hil))
  · intro h p hp
    obtain ⟨i, hi⟩ := List.mem_iff_getElem?.mp (hsort.1.mem_iff.mp hp)
    have hil : i < (dataLines mainLines emoji).length := by rw [← hlen]; exact (List.getElem?_eq_some_iff.mp hi).1
    exact h _ (List.getElem_mem hil) _ _ _ _ (htext i _ p (List.getElem?_eq_getElem hil) hi)

/-- A property with an underscore that is known, and one that is not. -/
example : constantOf (lit "Regional_Indicator") = some 7 ∧ constantOf (lit "E_Base") = none := by decide +kernel

theorem disjointLines_of_texts {lines : List GoString} {ps : List PropertyText} (h : Texts lines ps)
    (h1 : ∀ p ∈ ps, hexNumber p.from_ ≤ hexNumber p.to)
    (h2 : ps.Pairwise fun a b => hexNumber a.to < hexNumber b.from_ ∨ hexNumber b.to < hexNumber a.from_) :
    DisjointLines lines := by
  obtain ⟨hlen, ht⟩ := h
  have hget : ∀ (i : Nat) line, lines[i]? = some line → ∃ p, ps[i]? = some p ∧
      PropertyLine line p.from_ p.to p.property p.comment := by
    intro i line hl
    have hi : i < ps.length := by rw [hlen]; exact (List.getElem?_eq_some_iff.mp hl).1
    exact ⟨ps[i], List.getElem?_eq_getElem hi, ht i line _ hl (List.getElem?_eq_getElem hi)⟩
  constructor
  · intro line hl f t p c hpl
    obtain ⟨i, hi⟩ := List.mem_iff_getElem?.mp hl
    obtain ⟨q, hq, hql⟩ := hget i line hi
    obtain ⟨rfl, rfl, _, _⟩ := hpl.unique hql
    exact h1 q (List.mem_iff_getElem?.mpr ⟨i, hq⟩)
  · intro i j line line' hij hl hl' f t p c f' t' p' c' hpl hpl'
    obtain ⟨q, hq, hql⟩ := hget i line hl
    obtain ⟨q', hq', hql'⟩ := hget j line' hl'
    obtain ⟨rfl, rfl, _, _⟩ := hpl.unique hql
    obtain ⟨rfl, rfl, _, _⟩ := hpl'.unique hql'
    obtain ⟨hi, rfl⟩ := List.getElem?_eq_some_iff.mp hq
    obtain ⟨hj, rfl⟩ := List.getElem?_eq_some_iff.mp hq'
    exact List.pairwise_iff_getElem.mp h2 i j hi hj hij

/-- The texts of the two small files, in the order of the files. -/
def exampleTexts : List PropertyText :=
  [⟨lit "000D", lit "000D", lit "CR", lit "Cc       <control-000D>"⟩,
   ⟨lit "0300", lit "036F", lit "Extend", lit "Mn [112] COMBINING GRAVE ACCENT"⟩,
   ⟨lit "000A", lit "000A", lit "LF", lit "Cc       <control-000A>"⟩,
   ⟨lit "00A9", lit "00A9", lit "Extended_Pictographic", lit "E0.6   [1] (©)       copyright"⟩]

/-- The hypotheses of C64 hold for the two files; the table is that of the repository, as far as it goes. -/
example :
    let emoji := some (lit "Extended_Pictographic", exampleEmoji)
    let sorted := [2, 0, 3, 1].filterMap (exampleTexts[·]?)
    let table := [(0x0A, 0x0A, prLF), (0x0D, 0x0D, prCR), (0xA9, 0xA9, prExtendedPictographic), (0x300, 0x36F, prExtend)]
    parseFiles (some exampleMain) emoji = .ok exampleTexts ∧ SortResult exampleTexts sorted ∧
    compileTable sorted = some table ∧ DisjointLines (dataLines (some exampleMain) emoji) ∧
    table.map (fun e => property graphemeCodePoints e.1) = table.map (fun e => e.2.2) := by
  have h : parseFiles (some exampleMain) (some (lit "Extended_Pictographic", exampleEmoji)) = .ok exampleTexts := by
    decide +kernel
  refine ⟨h, ⟨?_, by decide +kernel⟩, by decide +kernel, ?_, by decide +kernel⟩
  · exact List.isPerm_iff.mp (by decide +kernel)
  · exact disjointLines_of_texts (((C64_parse _ _).1 _).mp h).2 (by decide +kernel) (by decide +kernel)

/-- An error names the line. -/
example : parseFiles (some exampleMain) (some (lit "Emoji", exampleEmoji ++ [lit "Emoji"])) = .error (.emoji 3) ∧
    parseFiles (some (exampleMain ++ [lit "300 ; Extend # x"])) none = .error (.main 6) ∧
    parseFiles none none = .error .nothing := by decide +kernel

/-- C64. The names of the properties in the three data files become the constants that the lookups of the package
compare with. -/
theorem C64_constants :
    [("Prepend", prPrepend), ("CR", prCR), ("LF", prLF), ("Control", prControl), ("Extend", prExtend),
      ("Regional_Indicator", prRegionalIndicator), ("SpacingMark", prSpacingMark), ("L", prL), ("V", prV), ("T", prT),
      ("LV", prLV), ("LVT", prLVT), ("ZWJ", prZWJ), ("Extended_Pictographic", prExtendedPictographic), ("N", prN),
      ("Na", prNa), ("A", prA), ("W", prW), ("H", prH), ("F", prF), ("Emoji_Presentation", prEmojiPresentation)].all
      (fun p => constantOf (lit p.1) = some p.2) = true := by decide +kernel

/-- C64 fails if a code point is listed twice: the unstable sort may leave either line first, and the lookup finds
one or the other. -/
theorem C64_not_if_listed_twice :
    ∃ ps sorted1 sorted2 t1 t2,
      parseFiles (some [lit "00A9 ; N # Copyright Sign"]) (some (lit "Extended_Pictographic", exampleEmoji)) = .ok ps ∧
      SortResult ps sorted1 ∧ SortResult ps sorted2 ∧ compileTable sorted1 = some t1 ∧ compileTable sorted2 = some t2 ∧
      property t1 0xA9 = prExtendedPictographic ∧ property t2 0xA9 = prN := by
  let a : PropertyText := ⟨lit "00A9", lit "00A9", lit "N", lit "Copyright Sign"⟩
  let b : PropertyText := ⟨lit "00A9", lit "00A9", lit "Extended_Pictographic", lit "E0.6   [1] (©)       copyright"⟩
  refine ⟨[a, b], [a, b], [b, a], [(0xA9, 0xA9, prN), (0xA9, 0xA9, prExtendedPictographic)],
    [(0xA9, 0xA9, prExtendedPictographic), (0xA9, 0xA9, prN)], by decide +kernel, ⟨List.Perm.refl _, by decide +kernel⟩,
    ⟨List.Perm.swap _ _ _, by decide +kernel⟩, by decide +kernel, by decide +kernel, by decide +kernel, by decide +kernel⟩

end GoTable
