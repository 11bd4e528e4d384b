import Verif.Model.GenFiles
import Verif.Spec.GenFiles
import Verif.Props.GenRunewidth
import Verif.Props.GenSource
/-!
# Facts about lines of files and about the source the width generator writes
-/

namespace GoTable
open Spec

/-! ## Lines -/

theorem dropCR_chopped {raw line : GoString} (h : Chopped raw line) : dropCR raw = line := by
  rcases h with rfl | ⟨rfl, h⟩
  · simp [dropCR]
  · simp [dropCR, h]

theorem chopped_dropCR (raw : GoString) : Chopped raw (dropCR raw) := by
  unfold dropCR Chopped
  split
  · rename_i h
    left
    obtain ⟨ys, rfl⟩ := List.getLast?_eq_some_iff.mp h
    simp
  · rename_i h
    exact .inr ⟨rfl, h⟩

theorem ne_newline {raw : GoString} (h : 0x0A ∉ raw) : ∀ b ∈ raw, (b != 0x0A) = true := by
  intro b hb
  simp only [bne_iff_ne]
  rintro rfl
  exact h hb

theorem takeWhile_line (raw rest : GoString) (h : 0x0A ∉ raw) :
    (raw ++ 0x0A :: rest).takeWhile (· != 0x0A) = raw := by
  rw [List.takeWhile_append_of_pos (ne_newline h), List.takeWhile_cons_of_neg (by simp), List.append_nil]

theorem dropWhile_line (raw rest : GoString) (h : 0x0A ∉ raw) :
    (raw ++ 0x0A :: rest).dropWhile (· != 0x0A) = 0x0A :: rest := by
  rw [List.dropWhile_append_of_pos (ne_newline h), List.dropWhile_cons_of_neg (by simp)]

variable {pr : Bool}

theorem scanLines_line (raw rest : GoString) (hnl : 0x0A ∉ raw) (hlen : raw.length < 65536) :
    scanLines pr (raw ++ 0x0A :: rest) = (dropCR raw :: (scanLines pr rest).1, (scanLines pr rest).2) := by
  rw [scanLines]
  simp only [takeWhile_line _ _ hnl]
  split
  · rename_i h; rw [dropWhile_line _ _ hnl] at h; cases h
  · rename_i h; rw [dropWhile_line _ _ hnl] at h; cases h; exact if_neg (by omega)

theorem takeWhile_all (raw : GoString) (h : 0x0A ∉ raw) : raw.takeWhile (· != 0x0A) = raw := by
  have := List.takeWhile_append_of_pos (l₂ := []) (ne_newline h)
  simpa using this

theorem dropWhile_all (raw : GoString) (h : 0x0A ∉ raw) : raw.dropWhile (· != 0x0A) = [] := by
  have := List.dropWhile_append_of_pos (l₂ := []) (ne_newline h)
  simpa using this

theorem dropWhile_nil {α : Type} {p : α → Bool} {l : List α} (h : l.dropWhile p = []) : ∀ x ∈ l, p x = true := by
  have hs := List.takeWhile_append_dropWhile (p := p) (l := l)
  rw [h, List.append_nil] at hs
  intro x hx
  rw [← hs] at hx
  exact List.all_eq_true.mp List.all_takeWhile x hx

theorem scanLines_last (raw : GoString) (hnl : 0x0A ∉ raw) (hlen : raw.length < 65536 ∨ pr = true ∧ raw.length = 65536) :
    scanLines pr raw = (if raw = [] then [] else [dropCR raw], false) := by
  rw [scanLines]
  simp only [takeWhile_all _ hnl]
  split
  · refine if_neg ?_
    rintro (h | ⟨h, hp⟩)
    · omega
    · exact hp (hlen.resolve_left (by omega)).1
  · rename_i h
    rw [dropWhile_all _ hnl] at h; cases h

/-- The line is too long, and it is not just 65536 bytes whose end is reported promptly. -/
def TooLong (pr : Bool) (s : GoString) : Prop :=
  65536 ≤ (s.takeWhile (· != 0x0A)).length ∧ ¬ (pr = true ∧ s.length = 65536)

theorem scanLines_long (s : GoString) (h : TooLong pr s) : scanLines pr s = ([], true) := by
  have hs := List.takeWhile_append_dropWhile (p := (· != (0x0A : UInt8))) (l := s)
  rw [scanLines]
  split
  · rename_i hd
    rw [hd, List.append_nil] at hs
    refine if_pos ?_
    by_cases he : (s.takeWhile (· != 0x0A)).length = 65536
    · exact .inr ⟨he, fun hp => h.2 ⟨hp, by rw [hs] at he; exact he⟩⟩
    · exact .inl (by have := h.1; omega)
  · exact if_pos h.1

theorem scanLines_linesOf {bytes : GoString} {lines : List GoString} (h : LinesOf pr bytes lines) :
    scanLines pr bytes = (lines, false) := by
  induction h with
  | done => rw [scanLines_last [] (by simp) (.inl (by simp))]; simp
  | last raw line hne hnl hlen hc => rw [scanLines_last raw hnl hlen, if_neg hne, dropCR_chopped hc]
  | line raw line rest lines hnl hlen hc _ ih => rw [scanLines_line _ _ hnl hlen, dropCR_chopped hc, ih]

/-- Bytes start with a whole line, are one, or are too long. -/
theorem bytes_cases (pr : Bool) (s : GoString) : TooLong pr s ∨
    (0x0A ∉ s ∧ (s.length < 65536 ∨ pr = true ∧ s.length = 65536)) ∨
    ∃ raw rest, s = raw ++ 0x0A :: rest ∧ 0x0A ∉ raw ∧ raw.length < 65536 := by
  by_cases hl : TooLong pr s
  · exact .inl hl
  · right
    have hs := List.takeWhile_append_dropWhile (p := (· != (0x0A : UInt8))) (l := s)
    have hraw : 0x0A ∉ s.takeWhile (· != 0x0A) := fun h => by
      have := List.all_eq_true.mp (List.all_takeWhile (l := s) (p := (· != (0x0A : UInt8)))) _ h
      simp at this
    cases hd : s.dropWhile (· != 0x0A) with
    | nil =>
      left
      rw [hd, List.append_nil] at hs
      rw [TooLong, hs] at hl
      rw [hs] at hraw
      refine ⟨hraw, ?_⟩
      by_cases hlt : s.length < 65536
      · exact .inl hlt
      · right
        by_cases hp : pr = true ∧ s.length = 65536
        · exact hp
        · exact absurd ⟨by omega, hp⟩ hl
    | cons b rest =>
      right
      have hb : b = 0x0A := by
        have := List.head?_dropWhile_not (p := (· != (0x0A : UInt8))) (l := s)
        rw [hd] at this
        simpa using this
      subst hb
      refine ⟨_, rest, by rw [← hd, hs], hraw, ?_⟩
      by_contra hlen
      refine hl ⟨by omega, fun hp => ?_⟩
      have := congrArg List.length hs
      rw [hd, List.length_append, List.length_cons] at this
      omega

theorem linesOf_of_scan {bytes : GoString} {lines : List GoString} (h : scanLines pr bytes = (lines, false)) :
    LinesOf pr bytes lines := by
  induction hn : bytes.length using Nat.strongRecOn generalizing bytes lines with
  | ind n ih =>
    rcases bytes_cases pr bytes with hl | ⟨hnl, hlen⟩ | ⟨raw, rest, rfl, hnl, hlen⟩
    · rw [scanLines_long _ hl] at h; simp at h
    · rw [scanLines_last _ hnl hlen] at h
      by_cases hne : bytes = []
      · subst hne
        simp only [if_true, Prod.mk.injEq] at h
        rw [← h.1]; exact .done
      · simp only [if_neg hne, Prod.mk.injEq] at h
        rw [← h.1]; exact .last _ _ hne hnl hlen (chopped_dropCR _)
    · rw [scanLines_line _ _ hnl hlen] at h
      simp only [Prod.mk.injEq] at h
      rw [← h.1]
      refine .line _ _ _ _ hnl hlen (chopped_dropCR _) (ih rest.length ?_ (Prod.ext rfl h.2) rfl)
      subst hn; simp; omega

theorem scanLines_append (pre rest : GoString) (hw : pre = [] ∨ pre.getLast? = some 0x0A) :
    scanLines pr (pre ++ rest) = if (scanLines pr pre).2 then scanLines pr pre
      else ((scanLines pr pre).1 ++ (scanLines pr rest).1, (scanLines pr rest).2) := by
  induction hn : pre.length using Nat.strongRecOn generalizing pre with
  | ind n ih =>
    by_cases hp : pre = []
    · subst hp
      rw [scanLines_last [] (by simp) (.inl (by simp))]
      simp
    · have hw' := hw.resolve_left hp
      obtain ⟨ys, hys⟩ := List.getLast?_eq_some_iff.mp hw'
      rcases bytes_cases pr pre with hl | ⟨hnl, hlen⟩ | ⟨raw, rest', rfl, hnl, hlen⟩
      · have : TooLong pr (pre ++ rest) := by
          have hl := hl.1
          rw [hys] at hl
          suffices 65536 ≤ ((pre ++ rest).takeWhile (· != 0x0A)).length by
            refine ⟨this, fun hp => ?_⟩
            have hlt : (pre.takeWhile (· != 0x0A)).length < pre.length := by
              have h1 := (List.takeWhile_sublist (p := (· != (0x0A : UInt8))) (l := pre)).length_le
              by_contra hc
              have h2 := (List.takeWhile_sublist (p := (· != (0x0A : UInt8))) (l := pre)).eq_of_length (by omega)
              have h3 : (0x0A : UInt8) ∈ pre.takeWhile (· != 0x0A) := by rw [h2, hys]; simp
              have := List.all_eq_true.mp (List.all_takeWhile (l := pre) (p := (· != (0x0A : UInt8)))) _ h3
              simp at this
            rw [← hys] at hl
            have := hp.2
            rw [List.length_append] at this
            omega
          rw [hys]
          by_cases hy : 0x0A ∈ ys
          · obtain ⟨as, bs, rfl, ha⟩ := List.eq_append_cons_of_mem hy
            simp only [List.append_assoc, List.cons_append] at hl ⊢
            rw [takeWhile_line _ _ ha] at hl ⊢
            exact hl
          · rw [takeWhile_line _ _ hy] at hl
            rw [List.append_assoc, List.singleton_append, takeWhile_line _ _ hy]
            exact hl
        rw [scanLines_long _ hl, scanLines_long _ this]
        rfl
      · rw [hys] at hnl; simp at hnl
      · have hr : rest' = [] ∨ rest'.getLast? = some 0x0A := by
          cases rest' with
          | nil => exact .inl rfl
          | cons x xs =>
            right
            simpa [List.getLast?_append, List.getLast?_cons_cons] using hw'
        rw [List.append_assoc, List.cons_append, scanLines_line _ _ hnl hlen, scanLines_line _ _ hnl hlen,
          ih rest'.length (by subst hn; simp; omega) rest' hr rfl]
        split <;> simp_all

/-! ## The source -/

/-- The tokens of an element. -/
def elementTokens (e : Nat × Nat) : List GoString :=
  [lit "{", lit "0x" ++ hexText (e.1 : Int), lit ",", lit "0x" ++ hexText (e.2 : Int), lit "}", lit ","]

theorem hexText_word (n : Nat) : ∀ b ∈ hexText (n : Int), WordByte b := fun b hb => wordByte_hex ((hexText_spec n).2.1 b hb)

theorem hexText_ne (n : Nat) : hexText (n : Int) ≠ [] := by
  intro h
  have := (hexText_spec n).1
  rw [h] at this; simp at this

theorem numberWord_hexText (n : Nat) : NumberWord (lit "0x" ++ hexText (n : Int)) n :=
  ⟨_, rfl, hexText_ne n, (hexText_spec n).2.1, (hexText_spec n).2.2⟩

theorem rowTokens_elements (arr : List (Nat × Nat)) : RowTokens (arr.flatMap elementTokens) arr := by
  induction arr with
  | nil => exact .nil
  | cons e arr ih =>
    rw [List.flatMap_cons]
    exact .cons _ _ _ _ _ _ (numberWord_hexText _) (numberWord_hexText _) ih

theorem read_element (e : Nat × Nat) (sep : GoString) (hsep : readBytes (.code false) sep = some (.code false, [])) :
    readBytes (.code false) (lit "{0x" ++ hexText (e.1 : Int) ++ lit ", 0x" ++ hexText (e.2 : Int) ++ lit "}," ++ sep) =
      some (.code false, elementTokens e) := by
  have h1 := readBytes_trans read_open (readBytes_word (lit "0x") (hexText (e.1 : Int)) (hexText_word _))
  have h2 := readBytes_trans h1 (read_comma (lit "0x" ++ hexText (e.1 : Int)))
  have h3 := readBytes_trans h2 (show readBytes (.code false) (lit " 0x") = some (.word (lit "0x"), []) by decide +kernel)
  have h4 := readBytes_trans h3 (readBytes_word (lit "0x") (hexText (e.2 : Int)) (hexText_word _))
  have hc : ∀ w, readBytes (.word w) (lit "},") = some (.code false, [w, lit "}", lit ","]) := by
    intro w
    rw [show lit "}," = [0x7D, 0x2C] by decide +kernel, show lit "}" = [0x7D] by decide +kernel,
      show lit "," = [0x2C] by decide +kernel]
    simp [readBytes, readByte, readCode, WordByte, punctuation]
  have h5 := readBytes_trans (readBytes_trans h4 (hc _)) hsep
  rw [show lit ", 0x" = lit "," ++ lit " 0x" by decide +kernel]
  simp only [List.append_assoc] at h5 ⊢
  rw [h5]
  simp [elementTokens]

theorem map_getD_range (arr : List (Nat × Nat)) : (List.range arr.length).map (fun i => arr.getD i (0, 0)) = arr := by
  apply List.ext_getElem
  · simp
  · intro i _ h
    simp [List.getD_eq_getElem?_getD, h]

/-- A table is read as its declaration. -/
theorem read_generateText (v : GoString) (hne : v ≠ []) (hv : ∀ b ∈ v, WordByte b) (arr : List (Nat × Nat)) :
    readBytes (.code false) (generateText v (signedRanges arr)) = some (.code false,
      [lit "var", v, lit "=", lit "table", lit "{"] ++ arr.flatMap elementTokens ++ [lit "}", lit ";"]) := by
  have hsep : ∀ i, readBytes (.code false)
      (if i + 1 < arr.length then if i % 3 = 2 then lit "\n\t" else lit " " else []) = some (.code false, []) := by
    intro i
    split
    · split <;> decide +kernel
    · rfl
  have hrows : ∀ l : List Nat, readBytes (.code false) (l.flatMap fun i =>
      let e := arr.getD i (0, 0)
      lit "{0x" ++ hexText (e.1 : Int) ++ lit ", 0x" ++ hexText (e.2 : Int) ++ lit "}," ++
        (if i + 1 < arr.length then if i % 3 = 2 then lit "\n\t" else lit " " else [])) =
      some (.code false, (l.map fun i => arr.getD i (0, 0)).flatMap elementTokens) := by
    intro l
    induction l with
    | nil => rfl
    | cons i l ih =>
      rw [List.flatMap_cons, List.map_cons, List.flatMap_cons]
      exact readBytes_trans (read_element _ _ (hsep i)) ih
  have h1 : readBytes (.code false) (lit "var ") = some (.code false, [lit "var"]) := by decide +kernel
  have h2 := readBytes_trans h1 (readBytes_newWord false v hne hv)
  have hs : readBytes (.word v) (lit " = table{\n\t") = some (.code false, [v, lit "=", lit "table", lit "{"]) := by
    have a : readBytes (.word v) [0x20] = some (.code (endsStatement v), [v]) := by
      simp [readBytes, readByte, readCode, WordByte]
    have b : ∀ q, readBytes (.code q) (lit "= table{\n\t") = some (.code false, [lit "=", lit "table", lit "{"]) := by
      decide +kernel
    have := readBytes_trans a (b _)
    rw [show lit " = table{\n\t" = [0x20] ++ lit "= table{\n\t" by decide +kernel, this]
    rfl
  have h3 := readBytes_trans h2 hs
  have h4 := readBytes_trans h3 (hrows (List.range arr.length))
  have h5 := readBytes_trans h4 (show readBytes (.code false) (lit "\n}\n") = some (.code false, [lit "}", lit ";"]) by
    decide +kernel)
  rw [map_getD_range] at h5
  rw [generateText_signed]
  simp only [List.append_assoc] at h5 ⊢
  rw [h5]
  simp

theorem read_lf : readBytes (.code false) (lit "\n") = some (.code false, []) := by decide +kernel

theorem declarations_cons (name : GoString) (arr : List (Nat × Nat)) {ts : List GoString}
    {decls : List (GoString × List (Nat × Nat))} (h : Declarations ts decls) :
    Declarations ([lit "var", name, lit "=", lit "table", lit "{"] ++ arr.flatMap elementTokens ++
      [lit "}", lit ";"] ++ ts) ((name, arr) :: decls) :=
  .cons name arr _ _ _ (rowTokens_elements arr) h

theorem read_name (v : GoString) : readBytes (.word v) (lit " = table{\n\t") =
    some (.code false, [v, lit "=", lit "table", lit "{"]) := by
  have a : readBytes (.word v) [0x20] = some (.code (endsStatement v), [v]) := by
    simp [readBytes, readByte, readCode, WordByte]
  have b : ∀ q, readBytes (.code q) (lit "= table{\n\t") = some (.code false, [lit "=", lit "table", lit "{"]) := by
    decide +kernel
  have := readBytes_trans a (b _)
  rw [show lit " = table{\n\t" = [0x20] ++ lit "= table{\n\t" by decide +kernel, this]
  rfl

theorem bad_append {s : GoString} (h : HexWithoutDigits s) (t : GoString) : HexWithoutDigits (s ++ t) := by
  obtain ⟨pre, post, q, ts, rfl, hr⟩ := h
  exact ⟨pre, post ++ t, q, ts, by simp, hr⟩

theorem bad_prepend {p s : GoString} {ts : List GoString} (hp : readBytes (.code false) p = some (.code false, ts))
    (h : HexWithoutDigits s) : HexWithoutDigits (p ++ s) := by
  obtain ⟨pre, post, q, ts', rfl, hr⟩ := h
  exact ⟨p ++ pre, post, q, _, by simp, readBytes_trans hp hr⟩

/-- An element with a negative bound. -/
theorem bad_element (e : Int × Int) (sep : GoString) (h : e.1 < 0 ∨ e.2 < 0) :
    HexWithoutDigits (lit "{0x" ++ hexText e.1 ++ lit ", 0x" ++ hexText e.2 ++ lit "}," ++ sep) := by
  have e1 : lit "{0x" = lit "{" ++ lit "0x" := by decide +kernel
  have e2 : lit ", 0x" = lit ", " ++ lit "0x" := by decide +kernel
  have e3 : lit "0x-" = lit "0x" ++ [0x2D] := by decide +kernel
  by_cases h1 : e.1 < 0
  · obtain ⟨d, hd, _⟩ := hexText_negative h1
    exact ⟨lit "{", _, false, _, by rw [hd, e1, e3]; simp only [List.append_assoc, List.cons_append, List.nil_append]; rfl,
      show readBytes (.code false) (lit "{") = some (.code false, [lit "{"]) by decide +kernel⟩
  · obtain ⟨d, hd, _⟩ := hexText_negative (h.resolve_left h1)
    obtain ⟨n, hn⟩ := Int.eq_ofNat_of_zero_le (Int.not_lt.mp h1)
    have r1 := readBytes_trans read_open (readBytes_word (lit "0x") (hexText (n : Int)) (hexText_word _))
    have r2 := readBytes_trans r1 (read_comma (lit "0x" ++ hexText (n : Int)))
    have r3 := readBytes_trans r2 (show readBytes (.code false) (lit " ") = some (.code false, []) by decide +kernel)
    refine ⟨_, d ++ (lit "}," ++ sep), _, _, ?_, r3⟩
    rw [hd, hn, e2, e3, show lit ", " = lit "," ++ lit " " by decide +kernel]
    simp only [List.append_assoc, List.cons_append, List.nil_append]

/-- A table is read as its declaration, or has a negative bound and is no Go source. -/
theorem generateText_cases (v : GoString) (hne : v ≠ []) (hv : ∀ b ∈ v, WordByte b) (arr : List (Int × Int)) :
    (∃ l, arr = signedRanges l) ∨ ((∃ p ∈ arr, p.1 < 0 ∨ p.2 < 0) ∧ HexWithoutDigits (generateText v arr)) := by
  by_cases h : ∀ p ∈ arr, 0 ≤ p.1 ∧ 0 ≤ p.2
  · exact .inl ⟨_, (signedRanges_nat h).symm⟩
  have hex : ∃ p ∈ arr, p.1 < 0 ∨ p.2 < 0 := by
    simp only [Classical.not_forall] at h
    obtain ⟨p, hp, h⟩ := h
    exact ⟨p, hp, by omega⟩
  refine .inr ⟨hex, ?_⟩
  have hsep : ∀ i, readBytes (.code false)
      (if i + 1 < arr.length then if i % 3 = 2 then lit "\n\t" else lit " " else []) = some (.code false, []) := by
    intro i
    split
    · split <;> decide +kernel
    · rfl
  have hrows : ∀ l : List Nat, (∃ i ∈ l, (arr.getD i (0, 0)).1 < 0 ∨ (arr.getD i (0, 0)).2 < 0) →
      HexWithoutDigits (l.flatMap fun i =>
        let e := arr.getD i (0, 0)
        lit "{0x" ++ hexText e.1 ++ lit ", 0x" ++ hexText e.2 ++ lit "}," ++
          (if i + 1 < arr.length then if i % 3 = 2 then lit "\n\t" else lit " " else [])) := by
    intro l
    induction l with
    | nil => rintro ⟨i, hi, _⟩; simp at hi
    | cons i l ih =>
      intro hl
      rw [List.flatMap_cons]
      by_cases hi : (arr.getD i (0, 0)).1 < 0 ∨ (arr.getD i (0, 0)).2 < 0
      · exact bad_append (bad_element _ _ hi) _
      · refine bad_prepend (ts := elementTokens ((arr.getD i (0, 0)).1.toNat, (arr.getD i (0, 0)).2.toNat)) ?_ (ih ?_)
        · have := read_element ((arr.getD i (0, 0)).1.toNat, (arr.getD i (0, 0)).2.toNat) _ (hsep i)
          dsimp only at this ⊢
          rwa [Int.toNat_of_nonneg (by omega), Int.toNat_of_nonneg (by omega)] at this
        · obtain ⟨j, hj, h'⟩ := hl
          rcases List.mem_cons.mp hj with rfl | hj
          · exact absurd h' hi
          · exact ⟨j, hj, h'⟩
  have h1 : readBytes (.code false) (lit "var ") = some (.code false, [lit "var"]) := by decide +kernel
  have h2 := readBytes_trans (readBytes_trans h1 (readBytes_newWord false v hne hv)) (read_name v)
  unfold generateText
  refine bad_append (bad_prepend h2 (hrows _ ?_)) _
  obtain ⟨p, hp, h⟩ := hex
  obtain ⟨i, hi, rfl⟩ := List.mem_iff_getElem.mp hp
  exact ⟨i, List.mem_range.mpr hi, by simpa [List.getD_eq_getElem?_getD, hi] using h⟩

/-- The tables of the first file. -/
def widthDecls (cmb dbl amb na nu : List (Nat × Nat)) : List (GoString × List (Nat × Nat)) :=
  [(lit "combining", cmb), (lit "doublewidth", dbl), (lit "ambiguous", amb), (lit "narrow", na), (lit "neutral", nu)]

/-- What comes before the tables. -/
theorem read_runewidthHeader : readBytes (.code false) (lit "// Code generated by script/generate.go. DO NOT EDIT.\n\n" ++
    lit "package runewidth\n\n") = some (.code false, [lit "package", lit "runewidth", lit ";"]) := by decide +kernel

theorem read_eastasianText (b : Body) {cmb dbl amb na nu : List (Nat × Nat)} {em : GoString} {ts : List GoString}
    {decls : List (GoString × List (Nat × Nat))}
    (ht : eastasianTables b.scan.1 =
      ⟨signedRanges cmb, signedRanges dbl, signedRanges amb, signedRanges na, signedRanges nu⟩)
    (he : readBytes (.code false) em = some (.code false, ts)) (hd : Declarations ts decls) :
    DeclaresTables (lit "// Code generated by script/generate.go. DO NOT EDIT.\n\n" ++ lit "package runewidth\n\n" ++
      eastasianText b ++ em) (widthDecls cmb dbl amb na nu ++ decls) := by
  have g : ∀ (s : String), lit s ≠ [] → (∀ x ∈ lit s, WordByte x) → ∀ arr, _ :=
    fun s h1 h2 arr => read_generateText (lit s) h1 h2 arr
  have h1 := readBytes_trans (g "combining" (by decide +kernel) (by decide +kernel) cmb) read_lf
  have h2 := readBytes_trans (g "doublewidth" (by decide +kernel) (by decide +kernel) dbl) read_lf
  have h3 := g "ambiguous" (by decide +kernel) (by decide +kernel) amb
  have h4 := readBytes_trans (g "narrow" (by decide +kernel) (by decide +kernel) na) read_lf
  have h5 := readBytes_trans (g "neutral" (by decide +kernel) (by decide +kernel) nu) read_lf
  have h := readBytes_trans read_runewidthHeader (readBytes_trans h1 (readBytes_trans h2 (readBytes_trans h3 (readBytes_trans h4
    (readBytes_trans h5 he)))))
  simp only [List.append_nil] at h
  refine ⟨_, ?_, declarations_cons _ _ (declarations_cons _ _ (declarations_cons _ _ (declarations_cons _ _
    (declarations_cons _ _ hd))))⟩
  rw [goTokens, eastasianText, ht]
  simp only [List.append_assoc] at h ⊢
  rw [h]
  simp [readEnd]

theorem read_widthHead (b : Body) {cmb dbl amb na nu : List (Nat × Nat)}
    (ht : eastasianTables b.scan.1 =
      ⟨signedRanges cmb, signedRanges dbl, signedRanges amb, signedRanges na, signedRanges nu⟩) :
    ∃ ts, readBytes (.code false) (lit "// Code generated by script/generate.go. DO NOT EDIT.\n\n" ++
      lit "package runewidth\n\n" ++ eastasianText b) = some (.code false, ts) := by
  have g : ∀ (s : String), lit s ≠ [] → (∀ x ∈ lit s, WordByte x) → ∀ arr, _ :=
    fun s h1 h2 arr => read_generateText (lit s) h1 h2 arr
  have h1 := readBytes_trans (g "combining" (by decide +kernel) (by decide +kernel) cmb) read_lf
  have h2 := readBytes_trans (g "doublewidth" (by decide +kernel) (by decide +kernel) dbl) read_lf
  have h3 := g "ambiguous" (by decide +kernel) (by decide +kernel) amb
  have h4 := readBytes_trans (g "narrow" (by decide +kernel) (by decide +kernel) na) read_lf
  have h5 := readBytes_trans (g "neutral" (by decide +kernel) (by decide +kernel) nu) read_lf
  have h := readBytes_trans read_runewidthHeader (readBytes_trans h1 (readBytes_trans h2 (readBytes_trans h3
    (readBytes_trans h4 h5))))
  rw [eastasianText, ht]
  simp only [List.append_assoc] at h ⊢
  exact ⟨_, h⟩

/-- The tables have no negative bounds, or the text is no Go source. -/
theorem eastasianText_cases (b : Body) : (∃ cmb dbl amb na nu, eastasianTables b.scan.1 =
      ⟨signedRanges cmb, signedRanges dbl, signedRanges amb, signedRanges na, signedRanges nu⟩) ∨
    HexWithoutDigits (eastasianText b) := by
  have g : ∀ (s : String), lit s ≠ [] → (∀ x ∈ lit s, WordByte x) → ∀ arr, _ :=
    fun s h1 h2 arr => read_generateText (lit s) h1 h2 arr
  unfold eastasianText
  generalize eastasianTables b.scan.1 = t
  obtain ⟨t1, t2, t3, t4, t5⟩ := t
  dsimp only
  simp only [List.append_assoc]
  rcases generateText_cases (lit "combining") (by decide +kernel) (by decide +kernel) t1 with ⟨cmb, rfl⟩ | h
  swap; · exact .inr (bad_append h.2 _)
  have h1 := g "combining" (by decide +kernel) (by decide +kernel) cmb
  rcases generateText_cases (lit "doublewidth") (by decide +kernel) (by decide +kernel) t2 with ⟨dbl, rfl⟩ | h
  swap; · exact .inr (bad_prepend h1 (bad_prepend read_lf (bad_append h.2 _)))
  have h2 := g "doublewidth" (by decide +kernel) (by decide +kernel) dbl
  rcases generateText_cases (lit "ambiguous") (by decide +kernel) (by decide +kernel) t3 with ⟨amb, rfl⟩ | h
  swap; · exact .inr (bad_prepend h1 (bad_prepend read_lf (bad_prepend h2 (bad_prepend read_lf (bad_append h.2 _)))))
  have h3 := g "ambiguous" (by decide +kernel) (by decide +kernel) amb
  rcases generateText_cases (lit "narrow") (by decide +kernel) (by decide +kernel) t4 with ⟨na, rfl⟩ | h
  swap; · exact .inr (bad_prepend h1 (bad_prepend read_lf (bad_prepend h2 (bad_prepend read_lf (bad_prepend h3
    (bad_append h.2 _))))))
  have h4 := g "narrow" (by decide +kernel) (by decide +kernel) na
  rcases generateText_cases (lit "neutral") (by decide +kernel) (by decide +kernel) t5 with ⟨nu, rfl⟩ | h
  swap; · exact .inr (bad_prepend h1 (bad_prepend read_lf (bad_prepend h2 (bad_prepend read_lf (bad_prepend h3
    (bad_prepend h4 (bad_prepend read_lf (bad_append h.2 _))))))))
  exact .inl ⟨cmb, dbl, amb, na, nu, rfl⟩

/-- Such a text has no reading. -/
theorem bad_tokens {text : GoString} (h : HexWithoutDigits text) : goTokens text = none := by
  obtain ⟨pre, post, q, ts, rfl, hr⟩ := h
  have h2 : readBytes (.code q) (lit "0x-" ++ post) = none := by
    rw [show lit "0x-" = [0x30, 0x78, 0x2D] by decide +kernel]
    cases q <;> simp [readBytes, readByte, readCode, WordByte, punctuation]
  have h3 : readBytes (.code false) (pre ++ (lit "0x-" ++ post)) = none := by
    rw [readBytes_append, hr]
    simp [h2]
  rw [goTokens, List.append_assoc, h3]

theorem numberWord_unique {w : GoString} {n n' : Nat} (h : NumberWord w n) (h' : NumberWord w n') : n = n' := by
  obtain ⟨d, e, _, _, hd⟩ := h
  obtain ⟨d', e', _, _, hd'⟩ := h'
  rw [e] at e'
  rw [← hd, ← hd', List.append_cancel_left e']

theorem rowTokens_unique {rows rows' x y : List GoString} {arr arr' : List (Nat × Nat)} (h : RowTokens rows arr)
    (h' : RowTokens rows' arr') (e : rows ++ lit "}" :: x = rows' ++ lit "}" :: y) : arr = arr' ∧ x = y := by
  have hne : lit "{" ≠ lit "}" := by decide +kernel
  induction h generalizing rows' arr' with
  | nil =>
    cases h' with
    | nil => exact ⟨rfl, by simpa using e⟩
    | cons v w lo hi ts arr hv hw h =>
      simp only [List.nil_append, List.cons_append] at e
      exact absurd (List.cons.inj e).1.symm hne
  | cons v w lo hi ts arr hv hw h ih =>
    cases h' with
    | nil =>
      simp only [List.nil_append, List.cons_append] at e
      exact absurd (List.cons.inj e).1 hne
    | cons v' w' lo' hi' ts' arr' hv' hw' h' =>
      simp only [List.nil_append, List.cons_append, List.cons.injEq, true_and] at e
      obtain ⟨rfl, rfl, e⟩ := e
      obtain ⟨rfl, rfl⟩ := ih h' e
      rw [numberWord_unique hv hv', numberWord_unique hw hw']
      exact ⟨rfl, rfl⟩

theorem declarations_unique {ts : List GoString} {d d' : List (GoString × List (Nat × Nat))} (h : Declarations ts d)
    (h' : Declarations ts d') : d = d' := by
  induction h generalizing d' with
  | nil => cases h'; rfl
  | cons name arr rows ts decls hr h ih =>
    generalize e : [lit "var", name, lit "=", lit "table", lit "{"] ++ rows ++ [lit "}", lit ";"] ++ ts = all at h'
    cases h' with
    | nil => simp at e
    | cons name' arr' rows' ts' decls' hr' h' =>
      simp only [List.cons_append, List.nil_append, List.append_assoc, List.cons.injEq, true_and] at e
      obtain ⟨rfl, e⟩ := e
      obtain ⟨rfl, e⟩ := rowTokens_unique hr hr' e
      simp only [List.cons.injEq, true_and] at e
      subst e
      rw [ih h']

end GoTable
