import Verif.Model.Locale
/-!
# /repo/runewidth/uniseg/gen_properties.go: the generator of the property tables

Parsing and sorting; the command line and the source text are in `Verif.Model.GenSource`. Reading a file is modelled
from its lines on (`bufio.Scanner` is standard library). The tables the Go compiler makes of the generated source
are modelled as far as the entries `{0x…,0x…,pr…}` go.
-/

namespace GoTable

/-- `[0-9A-F]` -/
def isHexUpper (r : Nat) : Bool := (0x30 ≤ r && r ≤ 0x39) || (0x41 ≤ r && r ≤ 0x46)
/-- `\s` of package regexp: `[\t\n\f\r ]` -/
def isReSpace (r : Nat) : Bool := r == 0x09 || r == 0x0a || r == 0x0c || r == 0x0d || r == 0x20
/-- `[A-Za-z0-9_]` -/
def isWord (r : Nat) : Bool :=
  (0x41 ≤ r && r ≤ 0x5a) || (0x61 ≤ r && r ≤ 0x7a) || (0x30 ≤ r && r ≤ 0x39) || r == 0x5f

/-- `[0-9A-F]{4,6}` -/
def reCodePoint : Regex :=
  .cat (.cls isHexUpper) (.cat (.cls isHexUpper) (.cat (.cls isHexUpper) (.cat (.cls isHexUpper)
    (.upToSucc (.cls isHexUpper) 1))))
/-- `\.\.` -/
def reDots : Regex := .cat (.cls (· == 0x2e)) (.cls (· == 0x2e))
/-- `\s*;\s*` -/
def reSemicolon : Regex := .cat (.star (.cls isReSpace)) (.cat (.cls (· == 0x3b)) (.star (.cls isReSpace)))
/-- `[A-Za-z0-9_]+` -/
def reWord : Regex := .cat (.cls isWord) (.star (.cls isWord))
/-- `\s*#\s` -/
def reHash : Regex := .cat (.star (.cls isReSpace)) (.cat (.cls (· == 0x23)) (.cls isReSpace))

/-- The part of `s` before its remainder `r`. -/
def before (s r : GoString) : GoString := s.take (s.length - r.length)

/-- The matches of `propertyPattern`, /repo/runewidth/uniseg/gen_properties.go:47, as the groups 1, 3, 4 and 5, most
preferred first. The expression is anchored at both ends. -/
def propertyMatches (line : GoString) : List (GoString × GoString × GoString × GoString) :=
  (reCodePoint.run line).flatMap fun a =>
  ((reDots.run a).flatMap (fun m => (reCodePoint.run m).map fun b => (before m b, b)) ++ [([], a)]).flatMap fun (tb : GoString × GoString) =>
  (reSemicolon.run tb.2).flatMap fun c =>
  (reWord.run c).flatMap fun d =>
  (reHash.run d).flatMap fun e =>
  ((reLocGroup.run e).filter List.isEmpty).map fun r => (before line a, tb.1, before c d, before e r)

/-- A code point range with its property and comment, as text. -/
structure PropertyText where
  from_ : GoString
  to : GoString
  property : GoString
  comment : GoString
deriving DecidableEq, Repr

/-- /repo/runewidth/uniseg/gen_properties.go:238-252 `parseProperty`; `none` is the error. -/
def parseProperty (line : GoString) : Option PropertyText :=
  match (propertyMatches line).head? with
  | none => none
  | some (g1, g3, g4, g5) => some ⟨g1, if g3 = [] then g1 else g3, g4, g5⟩

/-- /repo/runewidth/uniseg/gen_properties.go:256-258 `translateProperty`. -/
def translateProperty (pfx property : GoString) : GoString := pfx ++ property.filter (· != 0x5f)

/-- The encodings of the characters `unicode.IsSpace` accepts (standard library). -/
def spaceEncodings : List GoString :=
  [[0x09], [0x0a], [0x0b], [0x0c], [0x0d], [0x20], [0xc2, 0x85], [0xc2, 0xa0], [0xe1, 0x9a, 0x80]] ++
  (List.range 11).map (fun k => [0xe2, 0x80, UInt8.ofNat (0x80 + k)]) ++
  [[0xe2, 0x80, 0xa8], [0xe2, 0x80, 0xa9], [0xe2, 0x80, 0xaf], [0xe2, 0x81, 0x9f], [0xe3, 0x80, 0x80]]

/-- Take off members of `encs` from the front as long as possible. -/
def trimFront (encs : List GoString) (s : GoString) : GoString :=
  match encs.find? fun e => e.isPrefixOf s && !e.isEmpty with
  | none => s
  | some e => if _h : (s.drop e.length).length < s.length then trimFront encs (s.drop e.length) else s
termination_by s.length
decreasing_by exact _h

/-- `strings.TrimSpace` (standard library contract). -/
def trimSpace (s : GoString) : GoString :=
  (trimFront (spaceEncodings.map List.reverse) (trimFront spaceEncodings s).reverse).reverse

/-- `strings.Contains(s, sub)` (standard library contract). -/
def containsText (s sub : GoString) : Bool :=
  sub.isPrefixOf s || match s with
    | [] => false
    | _ :: t => containsText t sub

/-- The loop over the lines of the first file, /repo/runewidth/uniseg/gen_properties.go:128-144, from line number
`num` on; an error is the number of the line. -/
def parseMainLines : List GoString → (num : Nat) → Except Nat (List PropertyText)
  | [], _ => .ok []
  | text :: lines, num =>
    let line := trimSpace text
    if (lit "#").isPrefixOf line || line.isEmpty then parseMainLines lines (num + 1)
    else
      match parseProperty line with
      | none => .error num
      | some p =>
        match parseMainLines lines (num + 1) with
        | .error n => .error n
        | .ok ps => .ok (p :: ps)

/-- The loop over the lines of the emoji file, /repo/runewidth/uniseg/gen_properties.go:161-178; these lines are not
trimmed. -/
def parseEmojiLines (emojiProperty : GoString) : List GoString → (num : Nat) → Except Nat (List PropertyText)
  | [], _ => .ok []
  | line :: lines, num =>
    if (lit "#").isPrefixOf line || line.isEmpty || !containsText line emojiProperty then
      parseEmojiLines emojiProperty lines (num + 1)
    else
      match parseProperty line with
      | none => .error num
      | some p =>
        match parseEmojiLines emojiProperty lines (num + 1) with
        | .error n => .error n
        | .ok ps => .ok (p :: ps)

/-- Which file an error is about, and the line number. -/
inductive GenError where
  | nothing
  | main (num : Nat)
  | emoji (num : Nat)
deriving DecidableEq, Repr

/-- The parsing part of `parse`, /repo/runewidth/uniseg/gen_properties.go:106-183, before sorting. `none` stands for
an empty URL or property. -/
def parseFiles (mainLines : Option (List GoString)) (emoji : Option (GoString × List GoString)) :
    Except GenError (List PropertyText) :=
  match mainLines, emoji with
  | none, none => .error .nothing
  | _, _ =>
    match parseMainLines (mainLines.getD []) 1 with
    | .error n => .error (.main n)
    | .ok ps =>
      match emoji with
      | none => .ok ps
      | some (prop, lines) =>
        match parseEmojiLines prop lines 1 with
        | .error n => .error (.emoji n)
        | .ok qs => .ok (ps ++ qs)

/-- The value of a hexadecimal digit, upper or lower case; other bytes count as 0. -/
def hexValue (b : UInt8) : Nat :=
  if 0x30 ≤ b.toNat ∧ b.toNat ≤ 0x39 then b.toNat - 0x30
  else if 0x41 ≤ b.toNat ∧ b.toNat ≤ 0x46 then b.toNat - 0x41 + 10
  else if 0x61 ≤ b.toNat ∧ b.toNat ≤ 0x66 then b.toNat - 0x61 + 10
  else 0

/-- `strconv.ParseUint(s, 16, 64)` on hexadecimal digits, and the value of the Go literal `0x…`. -/
def parseHex (s : GoString) : Nat := s.foldl (fun n b => n * 16 + hexValue b) 0

/-- What `sort.Slice` with the order of /repo/runewidth/uniseg/gen_properties.go:186-190 may make of `props`: it is
not stable, so entries with the same start can come in any order. -/
def SortResult (props sorted : List PropertyText) : Prop :=
  sorted.Perm props ∧ sorted.Pairwise fun a b => ¬ parseHex b.from_ < parseHex a.from_

/-- The constants of /repo/runewidth/uniseg/properties.go:5-91 in order; `iota` makes each the index it has here. -/
def propertyConstants : List GoString :=
  ["prXX", "prAny", "prPrepend", "prCR", "prLF", "prControl", "prExtend", "prRegionalIndicator", "prSpacingMark", "prL",
   "prV", "prT", "prLV", "prLVT", "prZWJ", "prExtendedPictographic", "prNewline", "prWSegSpace", "prDoubleQuote",
   "prSingleQuote", "prMidNumLet", "prNumeric", "prMidLetter", "prMidNum", "prExtendNumLet", "prALetter", "prFormat",
   "prHebrewLetter", "prKatakana", "prSp", "prSTerm", "prClose", "prSContinue", "prATerm", "prUpper", "prLower",
   "prSep", "prOLetter", "prCM", "prBA", "prBK", "prSP", "prEX", "prQU", "prAL", "prPR", "prPO", "prOP", "prCP",
   "prIS", "prHY", "prSY", "prNU", "prCL", "prNL", "prGL", "prAI", "prBB", "prHL", "prSA", "prJL", "prJV", "prJT",
   "prNS", "prZW", "prB2", "prIN", "prWJ", "prID", "prEB", "prCJ", "prH2", "prH3", "prSG", "prCB", "prRI", "prEM",
   "prN", "prNa", "prA", "prW", "prH", "prF", "prEmojiPresentation"].map lit

/-- One entry `{0x%s,0x%s,%s}` of the generated table, /repo/runewidth/uniseg/gen_properties.go:228, as compiled;
`none` if the constant does not exist. -/
def compileEntry (p : PropertyText) : Option (Nat × Nat × Nat) :=
  (propertyConstants.idxOf? (translateProperty (lit "pr") p.property)).map fun c => (parseHex p.from_, parseHex p.to, c)

/-- The generated table as compiled. -/
def compileTable (props : List PropertyText) : Option (List (Nat × Nat × Nat)) := props.mapM compileEntry

end GoTable
