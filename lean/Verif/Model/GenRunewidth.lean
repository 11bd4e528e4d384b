import Verif.Model.Generate
import Verif.Model.GenProperties
/-!
# /repo/runewidth/script/generate.go: the generator of the runewidth tables

Fetching the files, gofmt and writing the result are not modelled; reading is modelled from the lines on. `fmt.Sscanf`
(standard library, not in /repo) is modelled for the four formats used.
-/

namespace GoTable

/-- The runes package fmt takes for white space (standard library). -/
def isFmtSpace (r : Nat) : Bool :=
  (0x09 ≤ r && r ≤ 0x0d) || r == 0x20 || r == 0x85 || r == 0xa0 || r == 0x1680 || (0x2000 ≤ r && r ≤ 0x200a) ||
  r == 0x2028 || r == 0x2029 || r == 0x202f || r == 0x205f || r == 0x3000

/-- Read runes while `p` holds: what remains. -/
def skipRunes (p : Nat → Bool) (s : GoString) : GoString :=
  if _h : s = [] then []
  else if p (decodeRune s).1 then skipRunes p (s.drop (decodeRune s).2)
  else s
termination_by s.length
decreasing_by
  have := decodeRune_size s _h
  simp [List.length_drop]; omega

/-- `SkipSpace` of package fmt in `Sscanf`: white space but not a newline, which is an error. -/
def fmtSkipSpace (s : GoString) : Option GoString :=
  let s := skipRunes (fun r => isFmtSpace r && r != 0x0a) s
  if s.head? = some 0x0a then none else some s

/-- A hexadecimal digit of either case. -/
def isHexAny (b : UInt8) : Bool :=
  (0x30 ≤ b.toNat && b.toNat ≤ 0x39) || (0x41 ≤ b.toNat && b.toNat ≤ 0x46) || (0x61 ≤ b.toNat && b.toNat ≤ 0x66)

/-- The verb `%x` for a `rune`: white space, an optional sign, digits; the value must fit in 32 bits. -/
def fmtScanHex (s : GoString) : Option (Int × GoString) :=
  match fmtSkipSpace s with
  | none => none
  | some s =>
    let negative := s.head? = some 0x2d
    let s := if s.head? = some 0x2b ∨ s.head? = some 0x2d then s.tail else s
    let digits := s.takeWhile isHexAny
    if digits = [] then none
    else
      let n : Int := if negative then -(parseHex digits : Int) else (parseHex digits : Int)
      if -2 ^ 31 ≤ n ∧ n < 2 ^ 31 then some (n, s.dropWhile isHexAny) else none

/-- Runes are written one by one: a byte that is not valid UTF-8 becomes U+FFFD. -/
def fmtValid (s : GoString) : GoString :=
  if _h : s = [] then []
  else (if decodeRune s = (0xFFFD, 1) then [0xEF, 0xBF, 0xBD] else s.take (decodeRune s).2) ++
    fmtValid (s.drop (decodeRune s).2)
termination_by s.length
decreasing_by
  have := decodeRune_size s _h
  simp [List.length_drop]; omega

/-- The verb `%s`: white space, then everything up to white space. -/
def fmtScanString (s : GoString) : Option (GoString × GoString) :=
  match fmtSkipSpace s with
  | none => none
  | some s =>
    let rest := skipRunes (fun r => !isFmtSpace r) s
    if s = [] then none else some (fmtValid (before s rest), rest)

/-- Literal text in a format. -/
def fmtLiteral (text s : GoString) : Option GoString := if text.isPrefixOf s then some (s.drop text.length) else none

/-- The space that ends the formats: the input is at its end, or at white space other than a newline. -/
def fmtSpace (s : GoString) : Bool :=
  s = [] || (isFmtSpace (decodeRune s).1 && (decodeRune s).1 != 0x0a)

/-- `fmt.Sscanf(line, "%x..%x;%s ", &r1, &r2, &ss)`, /repo/runewidth/script/generate.go:68. -/
def sscanfRangeClass (line : GoString) : Option (Int × Int × GoString) := do
  let (r1, s) ← fmtScanHex line
  let s ← fmtLiteral (lit "..") s
  let (r2, s) ← fmtScanHex s
  let s ← fmtLiteral (lit ";") s
  let (ss, s) ← fmtScanString s
  if fmtSpace s then some (r1, r2, ss) else none

/-- `fmt.Sscanf(line, "%x;%s ", &r1, &ss)`, /repo/runewidth/script/generate.go:70. -/
def sscanfClass (line : GoString) : Option (Int × GoString) := do
  let (r1, s) ← fmtScanHex line
  let s ← fmtLiteral (lit ";") s
  let (ss, s) ← fmtScanString s
  if fmtSpace s then some (r1, ss) else none

/-- `fmt.Sscanf(line, "%x..%x ", &r1, &r2)`, /repo/runewidth/script/generate.go:151. -/
def sscanfRange (line : GoString) : Option (Int × Int) := do
  let (r1, s) ← fmtScanHex line
  let s ← fmtLiteral (lit "..") s
  let (r2, s) ← fmtScanHex s
  if fmtSpace s then some (r1, r2) else none

/-- `fmt.Sscanf(line, "%x ", &r1)`, /repo/runewidth/script/generate.go:153. -/
def sscanfOne (line : GoString) : Option Int := do
  let (r1, s) ← fmtScanHex line
  if fmtSpace s then some r1 else none

/-- Lines 63-75 of /repo/runewidth/script/generate.go: the range and class of a line, or `none` if it is skipped. -/
def scanWidthLine (line : GoString) : Option (Int × Int × GoString) :=
  if (lit "#").isPrefixOf line then none
  else
    match sscanfRangeClass line with
    | some r => some r
    | none =>
      match sscanfClass line with
      | some (r1, ss) => some (r1, r1, ss)
      | none => none

/-- The ranges of `eastasian`, /repo/runewidth/script/generate.go:53-60. -/
structure WidthRanges where
  cmb : List (Int × Int)
  dbl : List (Int × Int)
  amb : List (Int × Int)
  na : List (Int × Int)
  nu : List (Int × Int)
deriving DecidableEq, Repr

/-- One round of the loop of `eastasian`, /repo/runewidth/script/generate.go:61-105. -/
def WidthRanges.addLine (t : WidthRanges) (line : GoString) : WidthRanges :=
  match scanWidthLine line with
  | none => t
  | some (r1, r2, ss) =>
    let t := if containsText line (lit "COMBINING") then { t with cmb := t.cmb ++ [(r1, r2)] } else t
    if ss = lit "W" ∨ ss = lit "F" then { t with dbl := t.dbl ++ [(r1, r2)] }
    else if ss = lit "A" then { t with amb := t.amb ++ [(r1, r2)] }
    else if ss = lit "Na" then { t with na := t.na ++ [(r1, r2)] }
    else if ss = lit "N" then { t with nu := t.nu ++ [(r1, r2)] }
    else t

/-- The tables `eastasian` generates, /repo/runewidth/script/generate.go:53-129. -/
def eastasianTables (lines : List GoString) : WidthRanges :=
  let t := lines.foldl WidthRanges.addLine ⟨[], [], [], [], []⟩
  ⟨shapeup t.cmb, shapeup t.dbl, shapeup t.amb, shapeup t.na, shapeup t.nu⟩

/-- Lines 147-161 of /repo/runewidth/script/generate.go: the range of a line of the emoji file, or `none`. -/
def scanEmojiLine (line : GoString) : Option (Int × Int) :=
  if (lit "#").isPrefixOf line then none
  else
    match (match sscanfRange line with
      | some r => some r
      | none =>
        match sscanfOne line with
        | some r1 => some (r1, r1)
        | none => none) with
    | none => none
    | some (r1, r2) => if r2 < 0xff then none else some (r1, r2)

/-- The table `emoji` generates, /repo/runewidth/script/generate.go:131-174: the lines after the first that contains the
text of line 136. -/
def emojiTable (lines : List GoString) : List (Int × Int) :=
  shapeup (((lines.dropWhile fun l => !containsText l (lit "Extended_Pictographic ; No")).drop 1).filterMap scanEmojiLine)

/-- The upper case digit for a number below 16. -/
def hexDigitOf (k : Nat) : UInt8 := UInt8.ofNat (if k < 10 then 0x30 + k else 0x37 + k)

/-- `%X` of a number. -/
def hexDigits (n : Nat) : GoString := if n < 16 then [hexDigitOf n] else hexDigits (n / 16) ++ [hexDigitOf (n % 16)]

/-- `%04X` of a `rune`: upper case hexadecimal digits, at least four, or a minus sign and at least three. -/
def hexText (n : Int) : GoString :=
  (if n < 0 then [0x2d] else []) ++
  List.replicate ((if n < 0 then 3 else 4) - (hexDigits n.natAbs).length) 0x30 ++ hexDigits n.natAbs

/-- /repo/runewidth/script/generate.go:25-38 `generate`: the Go source of a table. -/
def generateText (v : GoString) (arr : List (Int × Int)) : GoString :=
  lit "var " ++ v ++ lit " = table{\n\t" ++
  ((List.range arr.length).flatMap fun i =>
    let e := arr.getD i (0, 0)
    lit "{0x" ++ hexText e.1 ++ lit ", 0x" ++ hexText e.2 ++ lit "}," ++
      (if i + 1 < arr.length then if i % 3 = 2 then lit "\n\t" else lit " " else [])) ++
  lit "\n}\n"

end GoTable
