import Verif.Model.GoString
import Mathlib.Data.Nat.Digits.Defs
/-!
# Specification: what a locale name says about East Asian width

Stated on the bytes of the locale name; no regular expressions.
-/

namespace GoTable.Spec

/-- `a` to `z`. -/
def lowerLetter (b : UInt8) : Prop := 0x61 ≤ b.toNat ∧ b.toNat ≤ 0x7a
/-- `A` to `Z`. -/
def upperLetter (b : UInt8) : Prop := 0x41 ≤ b.toNat ∧ b.toNat ≤ 0x5a

/-- A language of two or three lower-case letters, with or without a country `_CC`. -/
def LanguageTag (tag : GoString) : Prop :=
  ∃ lang country : GoString, tag = lang ++ country ∧ (lang.length = 2 ∨ lang.length = 3) ∧
    (∀ b ∈ lang, lowerLetter b) ∧
    (country = [] ∨ ∃ x y, country = [0x5f, x, y] ∧ upperLetter x ∧ upperLetter y)

/-- `locale` is `ll[l][_CC].charset`; what counts of the charset ends at a newline. -/
def NamesCharset (locale charset : GoString) : Prop :=
  ∃ tag rest : GoString, LanguageTag tag ∧ locale = tag ++ 0x2e :: (charset ++ rest) ∧ charset ≠ [] ∧
    0x0a ∉ charset ∧ (rest = [] ∨ ∃ t, rest = 0x0a :: t)

/-- The charset that goes with a locale: the named one or else the whole locale; lower-cased. -/
def CharsetOf (lower : GoString → GoString) (locale charset : GoString) : Prop :=
  (∃ g, NamesCharset locale g ∧ charset = lower g) ∨
    ((∀ g, ¬ NamesCharset locale g) ∧ charset = lower locale)

/-- The part of a charset before the first `@`. -/
def BeforeAt (charset base : GoString) : Prop :=
  0x40 ∉ base ∧ (charset = base ∨ ∃ m, charset = base ++ 0x40 :: m)

/-- The charsets that encode one character in several bytes. -/
def multibyteCharsets : List GoString :=
  [lit "utf-8", lit "utf8", lit "jis", lit "eucjp", lit "euckr", lit "euccn", lit "sjis", lit "cp932",
    lit "cp51932", lit "cp936", lit "cp949", lit "cp950", lit "big5", lit "gbk", lit "gb2312"]

/-- The locales of the C language: `C`, `POSIX`, `C.…` and `C-…`. -/
def PlainC (locale : GoString) : Prop :=
  locale = lit "C" ∨ locale = lit "POSIX" ∨ ∃ t, locale = lit "C." ++ t ∨ locale = lit "C-" ++ t

/-- A Chinese, Japanese or Korean locale. -/
def CJKLanguage (locale : GoString) : Prop :=
  ∃ t, locale = lit "ja" ++ t ∨ locale = lit "ko" ++ t ∨ locale = lit "zh" ++ t

/-- A locale is East Asian. -/
def EastAsian (lower : GoString → GoString) (locale : GoString) : Prop :=
  ¬ PlainC locale ∧ ∃ charset base, CharsetOf lower locale charset ∧ BeforeAt charset base ∧
    (¬ ∃ t, charset = t ++ lit "@cjk_narrow") ∧ base ∈ multibyteCharsets ∧
    ((∃ t, base = lit "u" ++ t) → CJKLanguage locale)

/-- The first non-empty of three environment variables, or the empty string. -/
def FirstSet (a b c locale : GoString) : Prop :=
  (a ≠ [] ∧ locale = a) ∨ (a = [] ∧ b ≠ [] ∧ locale = b) ∨ (a = [] ∧ b = [] ∧ locale = c)

/-- A number in decimal. -/
def decimal (n : Nat) : GoString := (Nat.digits 10 n).reverse.map fun d => UInt8.ofNat (0x30 + d)

end GoTable.Spec
