import Verif.Model.Merge
import Verif.Model.Locale
import Verif.Proofs.RuneWidth
import Verif.Spec.Ranges
/-!
# The repository's own tests, run on the model

Every input and expected output of /repo/table_test.go, /repo/runewidth/runewidth_test.go and
/repo/runewidth/runewidth_posix_test.go, except the SHA-256 sums, which `tools/checksums.py` compares. They say nothing
for all inputs; they are here to show that the model computes what the code does where its authors have said what that is.
-/

namespace GoTable.Checks
open GoTable

/-- The settings of `NewCondition()` without East Asian width. -/
def plain : Flags := ⟨false, true⟩
/-- `c.EastAsianWidth = true` -/
def ea : Flags := ⟨true, true⟩
/-- and `c.StrictEmojiNeutral = false` -/
def nse : Flags := ⟨true, false⟩

/-! ## /repo/table_test.go -/

/-- /repo/table_test.go:10 -/
def reset : GoString := 0x1b :: lit "[0m"
/-- /repo/table_test.go:13-15 -/
def Fg (code : String) : GoString := 0x1b :: lit ("[38;5;" ++ code ++ "m")
/-- /repo/table_test.go:18-20 -/
def Bg (code : String) : GoString := 0x1b :: lit ("[48;5;" ++ code ++ "m")

/-- /repo/table_test.go:22-57 `Test_visualWidth` -/
example : ∀ t ∈ [
    (8, lit "さの.png"), (8, Fg "1" ++ lit "さの" ++ Fg "2" ++ lit ".png" ++ reset), (8, lit "たき.png"),
    (10, lit "いざわ.png"), (10, Fg "15" ++ lit "いざわ.png" ++ reset), (10, lit "うらべ.png"), (10, lit "かずお.png"),
    (10, lit "きすぎ.png"), (10, lit "さわだ.png"), (10, lit "じとう.png"), (10, lit "そうだ.png"), (10, lit "つばさ.png"),
    (10, lit "にった.png"), (10, lit "まさお.png"), (10, lit "みさき.png"), (10, lit "みすぎ.png"), (12, lit "いしざき.png"),
    (12, Fg "3" ++ lit "いしざき" ++ Bg "4" ++ lit ".png" ++ reset), (12, lit "そりまち.png"), (12, lit "たかすぎ.png"),
    (12, lit "ひゅうが.png"), (12, lit "まつやま.png"), (12, lit "もリさき.png"), (14, lit "わかしまづ.png"),
    (14, lit "わかばやし.png")], visualWidth plain t.2 = t.1 := by
  decide +kernel

/-- /repo/table_test.go:59-84 `TestAlign` -/
example :
    let str := Fg "1" ++ lit "さの" ++ Fg "2" ++ Fg "3" ++ Fg "4" ++ lit ".png" ++ reset
    alignmentLeft plain (lit "さの.png") 11 = lit "さの.png   " ∧ alignmentLeft plain str 11 = str ++ lit "   " ∧
    alignmentRight plain (lit "さの.png") 11 = lit "   さの.png" ∧ alignmentRight plain str 11 = lit "   " ++ str ∧
    alignmentCenter plain (lit "さの.png") 11 = lit "  さの.png " ∧
    alignmentCenter plain str 11 = lit "  " ++ str ++ lit " " := by
  decide +kernel

/-! ## /repo/runewidth/runewidth_test.go -/

/-- The number of code points in disjoint ranges. -/
def size (t : IntervalTable) : Nat := (t.map fun e => e.2 + 1 - e.1).sum

/-- /repo/runewidth/runewidth_test.go:42-66 `TestTableChecksums`, the counts. -/
example : [privateUse, nonprint, combining, doublewidth, ambiguous, emoji, narrow, neutral].map size =
    [137468, 2143, 465, 182440, 138739, 3535, 111, 27333] := by
  decide +kernel

/-- /repo/runewidth/runewidth_test.go:139-174 `TestSorted`: sorted, valid and compact. -/
example : ∀ t ∈ [privateUse, nonprint, combining, doublewidth, ambiguous, emoji, narrow, neutral],
    Spec.SortedRanges t ∧ Spec.NoneAdjacent t ∧ ∀ e ∈ t, e.1 ≤ e.2 ∧ e.2 ≤ 0x10FFFF := by
  decide +kernel

/-- /repo/runewidth/runewidth_test.go:176-211 `runewidthtests` -/
def runewidthtests : List (Char × Nat × Nat × Nat) := [
  ('世', 2, 2, 2), ('界', 2, 2, 2), ('ｾ', 1, 1, 1), ('ｶ', 1, 1, 1), ('ｲ', 1, 1, 1), ('☆', 1, 2, 2), ('☺', 1, 1, 2),
  ('☻', 1, 1, 2), ('♥', 1, 2, 2), ('♦', 1, 1, 2), ('♣', 1, 2, 2), ('♠', 1, 2, 2), ('♂', 1, 2, 2), ('♀', 1, 2, 2),
  ('♪', 1, 2, 2), ('♫', 1, 1, 2), ('☼', 1, 1, 2), ('↕', 1, 2, 2), ('‼', 1, 1, 2), ('↔', 1, 2, 2),
  ('\x00', 0, 0, 0), ('\x01', 0, 0, 0), ('\u0300', 0, 0, 0), ('\u2028', 0, 0, 0), ('\u2029', 0, 0, 0), ('a', 1, 1, 1),
  ('⟦', 1, 1, 1), ('👁', 1, 1, 2)]

/-- /repo/runewidth/runewidth_test.go:213-232 `TestRuneWidth` -/
example : ∀ t ∈ runewidthtests, runeWidth plain (t.1.toNat : Int) = t.2.1 ∧ runeWidth ea (t.1.toNat : Int) = t.2.2.1 ∧
    runeWidth nse (t.1.toNat : Int) = t.2.2.2 := by
  simp only [runeWidth_eq_plain]; decide +kernel

/-- /repo/runewidth/runewidth_test.go:234-260 `TestStringWidth` -/
example : ∀ t ∈ [(lit "■㈱の世界①", 10, 12), (lit "スター☆", 7, 8), (lit "つのだ☆HIRO", 11, 12)],
    stringWidth plain t.1 = t.2.1 ∧ stringWidth ea t.1 = t.2.2 := by
  simp only [stringWidth, runeWidth_eq_plain]; decide +kernel

/-- /repo/runewidth/runewidth_test.go:262-267 `TestStringWidthInvalid` -/
example : stringWidth plain (lit "こんにちわ" ++ 0x00 :: lit "世界") = 14 := by decide +kernel

/-- /repo/runewidth/runewidth_test.go:269-279 `TestEnv` -/
example : (Globals.initial.handleEnv (lit "0") true).defaultCondition.stringWidth (lit "│") = some 1 := by decide +kernel

/-- /repo/runewidth/runewidth_test.go:281-302 `TestZeroWidthJoiner` -/
example : ∀ t ∈ [(lit "👩", 2), (lit "👩\u200d", 2), (lit "👩\u200d🍳", 2), (lit "\u200d🍳", 2), (lit "👨\u200d👨", 2),
    (lit "👨\u200d👨\u200d👧", 2), (lit "あ👩\u200d🍳い", 6), (lit "あ\u200d🍳い", 6), (lit "あ\u200dい", 4)],
    stringWidth plain t.1 = t.2 := by
  decide +kernel

/-! ## /repo/runewidth/runewidth_posix_test.go -/

/-- /repo/runewidth/runewidth_posix_test.go:31-49 `TestIsEastAsian` -/
example : ∀ t ∈ [(lit "foo@cjk_narrow", false), (lit "foo@cjk", false), (lit "utf-8@cjk", false),
    (lit "ja_JP.CP932", true)], isEastAsianLocale asciiLower t.1 = some t.2 := by
  decide +kernel

/-- /repo/runewidth/runewidth_posix_test.go:51-74 `TestIsEastAsianLCCTYPE` -/
example : ∀ t ∈ [(lit "ja_JP.UTF-8", true), (lit "C", false), (lit "POSIX", false), (lit "en_US.UTF-8", false)],
    isEastAsian asciiLower [] t.1 (lit "de_DE.UTF-8") = some t.2 := by
  decide +kernel

/-- /repo/runewidth/runewidth_posix_test.go:76-98 `TestIsEastAsianLANG` -/
example : ∀ t ∈ [(lit "ja_JP.UTF-8", true), (lit "C", false), (lit "POSIX", false), (lit "en_US.UTF-8", false),
    (lit "C.UTF-8", false)], isEastAsian asciiLower [] [] t.1 = some t.2 := by
  decide +kernel

end GoTable.Checks
