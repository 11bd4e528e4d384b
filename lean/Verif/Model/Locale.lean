import Verif.Model.Regex
import Verif.Model.RuneWidth
import Verif.Model.Width
/-!
# /repo/runewidth/runewidth_posix.go: East Asian locale detection
-/

namespace GoTable

/-- `[a-z]` -/
def isLowerAZ (r : Nat) : Bool := 0x61 ≤ r && r ≤ 0x7a
/-- `[A-Z]` -/
def isUpperAZ (r : Nat) : Bool := 0x41 ≤ r && r ≤ 0x5a
/-- `.`: any character but a newline -/
def notNewline (r : Nat) : Bool := r != 0x0a

/-- The part of `reLoc` before its capture group, /repo/runewidth/runewidth_posix.go:12:
`[a-z][a-z][a-z]?(?:_[A-Z][A-Z])?\.` -/
def reLocPrefix : Regex :=
  .cat (.cls isLowerAZ) (.cat (.cls isLowerAZ) (.cat (.opt (.cls isLowerAZ))
    (.cat (.opt (.cat (.cls (· == 0x5f)) (.cat (.cls isUpperAZ) (.cls isUpperAZ))))
      (.cls (· == 0x2e)))))

/-- The capture group of `reLoc`: `.+` -/
def reLocGroup : Regex := .cat (.cls notNewline) (.star (.cls notNewline))

/-- Group 1 of `reLoc.FindStringSubmatch(locale)`, /repo/runewidth/runewidth_posix.go:12,34-36; the
expression is anchored at the start. `none` when there is no match (then `len(r)` is 0, not 2). -/
def reLocSubmatch (locale : GoString) : Option GoString :=
  (((reLocPrefix.run locale).flatMap fun m =>
    (reLocGroup.run m).map fun r => m.take (m.length - r.length))).head?

/-- /repo/runewidth/runewidth_posix.go:14-30 `mblenTable`. -/
def mblenTable : List (GoString × Nat) := [
  (lit "utf-8", 6), (lit "utf8", 6), (lit "jis", 8), (lit "eucjp", 3), (lit "euckr", 2),
  (lit "euccn", 2), (lit "sjis", 2), (lit "cp932", 2), (lit "cp51932", 2), (lit "cp936", 2),
  (lit "cp949", 2), (lit "cp950", 2), (lit "big5", 2), (lit "gbk", 2), (lit "gb2312", 2)]

/-- /repo/runewidth/runewidth_posix.go:32-60 `isEastAsian`. `toLower` stands for `strings.ToLower`
(Unicode lower-casing, standard library). `none` is the index panic of `charset[0]` on an empty
charset. -/
def isEastAsianLocale (toLower : GoString → GoString) (locale : GoString) : Option Bool :=
  let charset := match reLocSubmatch locale with
    | some g => toLower g
    | none => toLower locale
  if (lit "@cjk_narrow").isSuffixOf charset then some false
  else
    let charset := charset.takeWhile (· != 0x40)
    let max := match mblenTable.lookup charset with
      | some m => m
      | none => 1
    if max > 1 then
      match charset[0]? with
      | none => none
      | some b =>
        some (b != 0x75 || (lit "ja").isPrefixOf locale || (lit "ko").isPrefixOf locale ||
          (lit "zh").isPrefixOf locale)
    else some false

/-- /repo/runewidth/runewidth_posix.go:63-81 `IsEastAsian`, given the three environment variables. -/
def isEastAsian (toLower : GoString → GoString) (lcAll lcCtype lang : GoString) : Option Bool :=
  let locale := lcAll
  let locale := if locale = [] then lcCtype else locale
  let locale := if locale = [] then lang else locale
  if locale = lit "POSIX" ∨ locale = lit "C" then some false
  else if locale.length > 1 ∧ locale[0]? = some 0x43 ∧
      (locale[1]? = some 0x2e ∨ locale[1]? = some 0x2d) then some false
  else isEastAsianLocale toLower locale

/-- ASCII lower-casing: what `strings.ToLower` does on ASCII strings. -/
def asciiLower (s : GoString) : GoString :=
  s.map fun b => if 0x41 ≤ b.toNat ∧ b.toNat ≤ 0x5a then b + 32 else b

/-- /repo/runewidth/runewidth_windows.go:15-28 `IsEastAsian` on Windows, given the result of
`GetConsoleOutputCP` (0 when the call fails). The conversion `int(r1)` keeps every code page. -/
def isEastAsianWindows (r1 : Nat) : Bool :=
  if r1 = 0 then false
  else if r1 = 932 ∨ r1 = 51932 ∨ r1 = 936 ∨ r1 = 949 ∨ r1 = 950 then true
  else false

/-- /repo/runewidth/runewidth_js.go:6-9 and /repo/runewidth/runewidth_appengine.go:6-9: `IsEastAsian`
on the other platforms. -/
def isEastAsianOther : Bool := false

/-- What the environment of a process says to package runewidth. -/
structure Environment where
  /-- `RUNEWIDTH_EASTASIAN` -/
  runewidthEastAsian : GoString
  /-- `LC_ALL` -/
  lcAll : GoString
  /-- `LC_CTYPE` -/
  lcCtype : GoString
  /-- `LANG` -/
  lang : GoString

/-- /repo/runewidth/runewidth.go:25-44 `init` and `handleEnv` together with
/repo/runewidth/runewidth_posix.go:63-81: the locale is looked at only if `RUNEWIDTH_EASTASIAN` is
empty. `none` is a panic. -/
def Globals.handleEnvironment (g : Globals) (toLower : GoString → GoString) (e : Environment) :
    Option Globals :=
  if e.runewidthEastAsian = [] then
    match isEastAsian toLower e.lcAll e.lcCtype e.lang with
    | none => none
    | some ea => some (g.handleEnv e.runewidthEastAsian ea)
  else some (g.handleEnv e.runewidthEastAsian false)

end GoTable
