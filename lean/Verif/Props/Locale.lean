import Verif.Proofs.Locale
import Verif.Proofs.Histories
/-!
# C41 to C43: East Asian width from the environment
-/

namespace GoTable
open Spec

/-! ## C41 -/

/-- C41. Locale detection says yes exactly when the first of `LC_ALL`, `LC_CTYPE`, `LANG` that is set
names an East Asian locale. `lower` is any lower-casing function. -/
theorem C41_locale_detection (lower : GoString → GoString) (lcAll lcCtype lang locale : GoString)
    (h : FirstSet lcAll lcCtype lang locale) :
    (isEastAsian lower lcAll lcCtype lang = some true ↔ EastAsian lower locale) ∧
    (isEastAsian lower lcAll lcCtype lang = some false ↔ ¬ EastAsian lower locale) := by
  obtain ⟨r, e, hr⟩ := isEastAsian_cases lower _ _ _ _ h
  rw [e, ← hr]
  cases r <;> simp

/-- `zh_CN.UTF-8@pinyin` in `LC_CTYPE` is East Asian, whatever `LANG` is … -/
example : FirstSet [] (lit "zh_CN.UTF-8@pinyin") (lit "C") (lit "zh_CN.UTF-8@pinyin") ∧
    EastAsian asciiLower (lit "zh_CN.UTF-8@pinyin") := by
  have h : FirstSet [] (lit "zh_CN.UTF-8@pinyin") (lit "C") (lit "zh_CN.UTF-8@pinyin") :=
    Or.inr (Or.inl ⟨rfl, by decide +kernel, rfl⟩)
  exact ⟨h, (C41_locale_detection asciiLower _ _ _ _ h).1.mp (by decide +kernel)⟩

/-- … `en_US.UTF-8`, `ja_JP.utf8@cjk_narrow` and `C.EUCJP` are not … -/
example : ∀ l ∈ [lit "en_US.UTF-8", lit "ja_JP.utf8@cjk_narrow", lit "C.EUCJP"], ¬ EastAsian asciiLower l := by
  intro l hl
  have hne : ∀ l ∈ [lit "en_US.UTF-8", lit "ja_JP.utf8@cjk_narrow", lit "C.EUCJP"], l ≠ [] ∧
    isEastAsian asciiLower l [] [] = some false := by decide +kernel
  exact (C41_locale_detection asciiLower l [] [] l (Or.inl ⟨(hne l hl).1, rfl⟩)).2.mp (hne l hl).2

/-- … and `en_US.GBK` is. -/
example : EastAsian asciiLower (lit "en_US.GBK") :=
  (C41_locale_detection asciiLower (lit "en_US.GBK") [] [] _ (Or.inl ⟨by decide +kernel, rfl⟩)).1.mp
    (by decide +kernel)

/-! ## C42 -/

/-- C42. Detection never panics: for every locale string and every environment, and any lower-casing
function, there is an answer. -/
theorem C42_never_panics (lower : GoString → GoString) (locale lcAll lcCtype lang : GoString) :
    (isEastAsianLocale lower locale).isSome = true ∧
    (isEastAsian lower lcAll lcCtype lang).isSome = true := by
  obtain ⟨r, e, _⟩ := isEastAsianLocale_cases lower locale
  obtain ⟨l, hl⟩ := firstSet_exists lcAll lcCtype lang
  obtain ⟨r', e', _⟩ := isEastAsian_cases lower _ _ _ _ hl
  rw [e, e']
  exact ⟨rfl, rfl⟩

/-- An empty charset before the `@`, and an empty locale. -/
example : isEastAsianLocale asciiLower (lit "ja_JP.@x") = some false ∧
    isEastAsianLocale asciiLower [] = some false := by decide +kernel

/-! ## C43 -/

/-- C43. Reading the environment, in any state the package can be in, never panics; afterwards the
package flag and the default condition's flag are on exactly when `RUNEWIDTH_EASTASIAN` is `1`, or it
is empty and the locale is East Asian. -/
theorem C43_override (lower : GoString → GoString) (ops : List PkgOp) (e : Environment)
    (locale : GoString) (h : FirstSet e.lcAll e.lcCtype e.lang locale) :
    ∃ g, (pkgAfter ops).handleEnvironment lower e = some g ∧
      g.defaultCondition.flags.eastAsianWidth = g.eastAsianWidth ∧
      (e.runewidthEastAsian ≠ [] → (g.eastAsianWidth = true ↔ e.runewidthEastAsian = lit "1")) ∧
      (e.runewidthEastAsian = [] → (g.eastAsianWidth = true ↔ EastAsian lower locale)) := by
  obtain ⟨r, er, hr⟩ := isEastAsian_cases lower _ _ _ _ h
  have hinv := pkgInv_after ops
  unfold Globals.handleEnvironment
  by_cases he : e.runewidthEastAsian = []
  · rw [if_pos he, er]
    obtain ⟨h1, h2⟩ := pkgInv_handleEnv (pkgAfter ops) e.runewidthEastAsian r hinv
    refine ⟨_, rfl, by rw [h1.2.1], fun hn => absurd he hn, fun _ => ?_⟩
    rw [h2, envSays, if_pos he, hr]
  · rw [if_neg he]
    obtain ⟨h1, h2⟩ := pkgInv_handleEnv (pkgAfter ops) e.runewidthEastAsian false hinv
    refine ⟨_, rfl, by rw [h1.2.1], fun _ => ?_, fun hn => absurd hn he⟩
    rw [h2, envSays, if_neg he, decide_eq_true_iff]

/-- C43, the other platforms: on Windows the code page of the console takes the place of the locale; elsewhere, without
`RUNEWIDTH_EASTASIAN` the flag is off. -/
theorem C43_platforms (ops : List PkgOp) (env : GoString) (codePage : Nat) :
    (((pkgAfter ops).handleEnv env (isEastAsianWindows codePage)).eastAsianWidth = true ↔
      env = lit "1" ∨ env = [] ∧ codePage ∈ [932, 51932, 936, 949, 950]) ∧
    (((pkgAfter ops).handleEnv env isEastAsianOther).eastAsianWidth = true ↔ env = lit "1") := by
  have hl : lit "1" ≠ [] := by decide +kernel
  rw [(pkgInv_handleEnv (pkgAfter ops) env _ (pkgInv_after ops)).2,
    (pkgInv_handleEnv (pkgAfter ops) env _ (pkgInv_after ops)).2]
  unfold envSays isEastAsianWindows isEastAsianOther
  by_cases he : env = []
  · subst he
    rw [if_pos rfl, if_pos rfl]
    refine ⟨?_, by simp [hl.symm]⟩
    by_cases h0 : codePage = 0
    · subst h0; simp [hl.symm]
    · rw [if_neg h0]
      split <;> simp_all [hl.symm]
  · simp [he]

/-- `0` switches it off in a Japanese locale. -/
example : ∃ g, Globals.initial.handleEnvironment asciiLower ⟨lit "0", [], [], lit "ja_JP.UTF-8"⟩ = some g ∧
    g.eastAsianWidth = false := by
  obtain ⟨g, h1, _, h2, _⟩ := C43_override asciiLower [] ⟨lit "0", [], [], lit "ja_JP.UTF-8"⟩
    (lit "ja_JP.UTF-8") (Or.inr (Or.inr ⟨rfl, rfl, rfl⟩))
  refine ⟨g, h1, ?_⟩
  have hne : ¬ g.eastAsianWidth = true := by
    rw [h2 (by decide +kernel)]; decide +kernel
  simpa using hne

/-! ## C50 -/

theorem decimal_digit (n : Nat) : ∀ b ∈ decimal n, 0x30 ≤ b.toNat ∧ b.toNat ≤ 0x39 := by
  intro b hb
  simp only [decimal, List.mem_map, List.mem_reverse] at hb
  obtain ⟨d, hd, rfl⟩ := hb
  have := Nat.digits_lt_base (b := 10) (by omega) hd
  simp only [UInt8.toNat_ofNat']
  omega

theorem decimal_inj {n m : Nat} (h : decimal n = decimal m) : n = m := by
  unfold decimal at h
  have key : ∀ l l' : List Nat, (∀ d ∈ l, d < 10) → (∀ d ∈ l', d < 10) →
      l.map (fun d => UInt8.ofNat (0x30 + d)) = l'.map (fun d => UInt8.ofNat (0x30 + d)) → l = l' := by
    intro l
    induction l with
    | nil => intro l' _ _ h; cases l' with
      | nil => rfl
      | cons => simp at h
    | cons a l ih =>
      intro l' h1 h2 h
      cases l' with
      | nil => simp at h
      | cons b l' =>
        simp only [List.map_cons, List.cons.injEq] at h
        have e := congrArg UInt8.toNat h.1
        simp only [UInt8.toNat_ofNat'] at e
        have := h1 a (by simp)
        have := h2 b (by simp)
        rw [ih l' (fun d hd => h1 d (by simp [hd])) (fun d hd => h2 d (by simp [hd])) h.2,
          show a = b by omega]
  have hd : ∀ n, ∀ d ∈ (Nat.digits 10 n).reverse, d < 10 := fun n d hd =>
    Nat.digits_lt_base (by omega) (List.mem_reverse.mp hd)
  exact Nat.digits.injective 10 (List.reverse_inj.mp (key _ _ (hd n) (hd m) h))

/-- C50. Windows and POSIX agree on code pages: for every number `n` and every language, the console
code page `n` counts as East Asian on Windows exactly when the charset `cp<n>` does on POSIX, whatever
the other locale variables are. -/
theorem C50_code_pages_agree (n : Nat) (tag lcCtype lang : GoString) (htag : LanguageTag tag) :
    isEastAsian asciiLower (tag ++ lit "." ++ lit "cp" ++ decimal n) lcCtype lang
      = some (isEastAsianWindows n) := by
  have hcp : lit "cp" = [0x63, 0x70] := by decide +kernel
  have hdot : lit "." = [0x2e] := by decide +kernel
  have hdig := decimal_digit n
  generalize hloc : tag ++ lit "." ++ lit "cp" ++ decimal n = locale
  have hnames : NamesCharset locale (lit "cp" ++ decimal n) := by
    refine ⟨tag, [], htag, by rw [← hloc, hdot]; simp, by rw [hcp]; simp, ?_, Or.inl rfl⟩
    rw [hcp]
    intro hm
    simp only [List.cons_append, List.nil_append, List.mem_cons] at hm
    rcases hm with hm | hm | hm
    · exact absurd hm (by decide)
    · exact absurd hm (by decide)
    · have := hdig _ hm; simp at this
  have hlow : asciiLower (lit "cp" ++ decimal n) = lit "cp" ++ decimal n := by
    unfold asciiLower
    conv_rhs => rw [← List.map_id (lit "cp" ++ decimal n)]
    apply List.map_congr_left
    intro b hb
    rw [if_neg]; rfl
    rw [hcp] at hb
    simp only [List.cons_append, List.nil_append, List.mem_cons] at hb
    rcases hb with rfl | rfl | hb
    · decide
    · decide
    · have := hdig _ hb; omega
  have hcs : codeCharset asciiLower locale = lit "cp" ++ decimal n := by
    unfold codeCharset
    rw [(reLocSubmatch_some _ _).mpr hnames]
    exact hlow
  have hbase : (lit "cp" ++ decimal n).takeWhile (· != 0x40) = lit "cp" ++ decimal n := by
    apply takeWhile_self
    intro b hb
    rw [hcp] at hb
    simp only [List.cons_append, List.nil_append, List.mem_cons] at hb
    rcases hb with rfl | rfl | hb
    · decide
    · decide
    · simp only [bne_iff_ne, ne_eq]; rintro rfl; have := hdig _ hb; simp at this
  have hne : locale ≠ [] := by rw [← hloc, hdot]; simp
  have hmb : lit "cp" ++ decimal n ∈ multibyteCharsets ↔ isEastAsianWindows n = true := by
    have hcase : ∀ m, lit "cp" ++ decimal n = lit "cp" ++ decimal m ↔ n = m := fun m =>
      ⟨fun h => decimal_inj (List.append_cancel_left h), fun h => by rw [h]⟩
    have hother : ∀ c : GoString, c.take 2 ≠ [0x63, 0x70] → lit "cp" ++ decimal n ≠ c := by
      rintro c hc rfl
      rw [hcp] at hc
      simp at hc
    have e1 : lit "cp932" = lit "cp" ++ decimal 932 := by simp [decimal]; decide +kernel
    have e2 : lit "cp51932" = lit "cp" ++ decimal 51932 := by simp [decimal]; decide +kernel
    have e3 : lit "cp936" = lit "cp" ++ decimal 936 := by simp [decimal]; decide +kernel
    have e4 : lit "cp949" = lit "cp" ++ decimal 949 := by simp [decimal]; decide +kernel
    have e5 : lit "cp950" = lit "cp" ++ decimal 950 := by simp [decimal]; decide +kernel
    unfold multibyteCharsets
    simp only [List.mem_cons, List.not_mem_nil, or_false, e1, e2, e3, e4, e5, hcase]
    simp only [hother (lit "utf-8") (by decide +kernel), hother (lit "utf8") (by decide +kernel),
      hother (lit "jis") (by decide +kernel), hother (lit "eucjp") (by decide +kernel),
      hother (lit "euckr") (by decide +kernel), hother (lit "euccn") (by decide +kernel),
      hother (lit "sjis") (by decide +kernel), hother (lit "big5") (by decide +kernel),
      hother (lit "gbk") (by decide +kernel), hother (lit "gb2312") (by decide +kernel), false_or, or_false]
    unfold isEastAsianWindows
    split
    · simp; omega
    · split <;> simp <;> omega
  have hspec : EastAsian asciiLower locale ↔ isEastAsianWindows n = true := by
    rw [← hmb]
    unfold EastAsian
    simp only [charsetOf_iff, beforeAt_iff, hcs]
    constructor
    · rintro ⟨_, _, _, rfl, rfl, _, h, _⟩
      rwa [hbase] at h
    · intro h
      refine ⟨?_, _, _, rfl, rfl, ?_, by rwa [hbase], ?_⟩
      · rw [plainC_iff]
        obtain ⟨l, c, rfl, hlen, hlow', _⟩ := htag
        obtain ⟨x, t, rfl⟩ : ∃ x t, l = x :: t := by
          cases l with
          | nil => simp at hlen
          | cons x t => exact ⟨x, t, rfl⟩
        have hx := hlow' x (by simp)
        have hx0 : x ≠ 0x43 := by rintro rfl; simp [lowerLetter] at hx
        have hx1 : x ≠ 0x50 := by rintro rfl; simp [lowerLetter] at hx
        have h0 : locale[0]? = some x := by rw [← hloc]; simp
        rintro ((h | h) | ⟨_, h, _⟩)
        · rw [h, show (lit "POSIX")[0]? = some 0x50 by decide +kernel] at h0
          exact hx1 (Option.some.inj h0).symm
        · rw [h, show (lit "C")[0]? = some 0x43 by decide +kernel] at h0
          exact hx0 (Option.some.inj h0).symm
        · rw [h] at h0
          exact hx0 (Option.some.inj h0).symm
      · rintro ⟨t, ht⟩
        have hat : (0x40 : UInt8) ∈ lit "cp" ++ decimal n := by
          rw [ht]
          exact List.mem_append_right _ (by decide +kernel)
        rw [← hbase] at hat
        have := mem_takeWhile_imp hat
        simp at this
      · rw [hbase, hcp]
        rintro ⟨t, ht⟩
        rw [show lit "u" = [0x75] by decide +kernel] at ht
        simp at ht
  obtain ⟨r, er, hr⟩ := isEastAsian_cases asciiLower locale lcCtype lang locale (Or.inl ⟨hne, rfl⟩)
  rw [er]
  congr 1
  rw [hspec] at hr
  cases r <;> cases hw : isEastAsianWindows n <;> simp_all

/-- Code page 932 in a Japanese locale, and 1252. -/
example : LanguageTag (lit "ja_JP") ∧ isEastAsianWindows 932 = true ∧ isEastAsianWindows 1252 = false := by
  refine ⟨⟨lit "ja", lit "_JP", by decide +kernel, Or.inl (by decide +kernel), ?_,
    Or.inr ⟨0x4A, 0x50, by decide +kernel, ?_, ?_⟩⟩, by decide, by decide⟩
  · unfold lowerLetter; decide +kernel
  · unfold upperLetter; decide
  · unfold upperLetter; decide

end GoTable
