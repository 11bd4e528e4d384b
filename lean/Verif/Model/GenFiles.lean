import Verif.Model.GenRunewidth
import Verif.Model.GenSource
/-!
# Both generators, from the bytes of the files on

What the generators do with a download: the lines `bufio.Scanner` makes of it, and what happens if reading it fails.
gofmt and writing the result are not modelled.
-/

namespace GoTable

/-- The body of an HTTP response: the bytes that can be read, whether reading then fails instead of ending, and whether
this is reported together with the last bytes (`io.Reader` may do so) or by another call. -/
structure Body where
  bytes : GoString
  broken : Bool
  prompt : Bool
deriving DecidableEq, Repr

/-- A line without a carriage return at its end (`bufio.ScanLines`, standard library). -/
def dropCR (raw : GoString) : GoString := if raw.getLast? = some 0x0D then raw.dropLast else raw

/-- `bufio.Scanner` with its default settings (standard library): the lines, and whether it stops with `ErrTooLong`, which
it does when its buffer of 65536 bytes is full and has no line end, unless it knows that nothing follows. -/
def scanLines (prompt : Bool) (s : GoString) : List GoString × Bool :=
  let raw := s.takeWhile (· != 0x0A)
  match _h : s.dropWhile (· != 0x0A) with
  | [] =>
    if raw.length > 65536 ∨ (raw.length = 65536 ∧ ¬ prompt) then ([], true)
    else (if raw = [] then [] else [dropCR raw], false)
  | _ :: rest =>
    if raw.length ≥ 65536 then ([], true)
    else (dropCR raw :: (scanLines prompt rest).1, (scanLines prompt rest).2)
termination_by s.length
decreasing_by
  all_goals
    have h1 : (s.dropWhile (· != 0x0A)).length ≤ s.length := (List.dropWhile_sublist _).length_le
    rw [_h] at h1
    simp at h1
    omega

/-- All lines `scanner.Scan()` gives, and whether `scanner.Err()` is an error in the end. -/
def Body.scan (b : Body) : List GoString × Bool := ((scanLines b.prompt b.bytes).1, (scanLines b.prompt b.bytes).2 || b.broken)

/-! ## /repo/runewidth/script/generate.go -/

/-- /repo/runewidth/script/generate.go:53-129 `eastasian`: what it prints. `scanner.Err()` is not looked at. -/
def eastasianText (b : Body) : GoString :=
  let t := eastasianTables b.scan.1
  generateText (lit "combining") t.cmb ++ lit "\n" ++
  generateText (lit "doublewidth") t.dbl ++ lit "\n" ++
  generateText (lit "ambiguous") t.amb ++
  generateText (lit "narrow") t.na ++ lit "\n" ++
  generateText (lit "neutral") t.nu ++ lit "\n"

/-- /repo/runewidth/script/generate.go:131-174 `emoji`: what it prints; nothing if it returns an error, line 142. `early`
says whether the scanner had met the error that breaks the body when it gave the line searched for in line 136: that
depends on how the bytes arrive. -/
def emojiText (b : Body) (early : Bool) : GoString :=
  match b.scan.1.dropWhile fun l => !containsText l (lit "Extended_Pictographic ; No") with
  | [] => if b.scan.2 then [] else generateText (lit "emoji") (emojiTable b.scan.1)
  | _ :: _ => if b.broken && early then [] else generateText (lit "emoji") (emojiTable b.scan.1)

/-- /repo/runewidth/script/generate.go:176-200: the text given to gofmt; `none` if a file cannot be fetched, lines 185 and
193. What `eastasian` and `emoji` return is not looked at. -/
def widthSource (ea em : Option Body) (early : Bool) : Option GoString :=
  match ea, em with
  | some ea, some em =>
    some (lit "// Code generated by script/generate.go. DO NOT EDIT.\n\n" ++ lit "package runewidth\n\n" ++
      eastasianText ea ++ emojiText em early)
  | _, _ => none

/-! ## /repo/runewidth/uniseg/gen_properties.go -/

/-- Why the generator of the property tables gives up: a line or the lack of input; or a file, the first or the emoji
file, that cannot be fetched or read to its end. -/
inductive BodyError where
  | text (e : GenError)
  | fetch (main : Bool)
  | read (main : Bool)
deriving DecidableEq, Repr

/-- The lines of the first file, /repo/runewidth/uniseg/gen_properties.go:115-145. -/
def parseMainBody : Option Body → Except BodyError (List PropertyText)
  | none => .error (.fetch true)
  | some b =>
    match parseMainLines b.scan.1 1 with
    | .error n => .error (.text (.main n))
    | .ok ps => if b.scan.2 then .error (.read true) else .ok ps

/-- The lines of the emoji file, /repo/runewidth/uniseg/gen_properties.go:149-183. -/
def parseEmojiBody (property : GoString) : Option Body → Except BodyError (List PropertyText)
  | none => .error (.fetch false)
  | some b =>
    match parseEmojiLines property b.scan.1 1 with
    | .error n => .error (.text (.emoji n))
    | .ok ps => if b.scan.2 then .error (.read false) else .ok ps

/-- The parsing part of `parse`, /repo/runewidth/uniseg/gen_properties.go:106-183, before sorting. An empty URL and an
empty property mean that the file is not wanted. -/
def parseBodies (url property : GoString) (fetch : GoString → Option Body) : Except BodyError (List PropertyText) :=
  if url = [] ∧ property = [] then .error (.text .nothing)
  else do
    let ps ← if url ≠ [] then parseMainBody (fetch url) else .ok []
    let qs ← if property ≠ [] then parseEmojiBody property (fetch emojiURL) else .ok []
    return ps ++ qs

/-- How the generator ends. -/
inductive BodyOutcome where
  /-- line 55 -/
  | notEnoughArguments
  /-- line 83 -/
  | failed (e : BodyError)
  /-- lines 219 and 223 -/
  | panicked
  /-- the text that is given to gofmt in line 87 -/
  | source (text : GoString)
deriving DecidableEq, Repr

/-- The properties a run of the generator reads, /repo/runewidth/uniseg/gen_properties.go:77-83. -/
def readProperties (args : List GoString) (fetch : GoString → Option Body) : Except BodyError (List PropertyText) :=
  parseBodies (mainURL args) ((generatorFlags args (lit "emojis")).getD []) fetch

/-- /repo/runewidth/uniseg/gen_properties.go:53-87: the ways a run of the generator may end. There can be more than
one because the sort is not stable. -/
inductive GeneratesFrom (args : List GoString) (fetch : GoString → Option Body) (date : GoString) : BodyOutcome → Prop
  | notEnough : args.length < 5 → GeneratesFrom args fetch date .notEnoughArguments
  | failed (e : BodyError) : 5 ≤ args.length → readProperties args fetch = .error e →
      GeneratesFrom args fetch date (.failed e)
  | panicked (ps sorted : List PropertyText) : 5 ≤ args.length → readProperties args fetch = .ok ps →
      SortResult ps sorted →
      propertySource (args.getD 3 []) (mainURL args) date (generatorFlags args (lit "gencat")).isSome sorted = none →
      GeneratesFrom args fetch date .panicked
  | source (ps sorted : List PropertyText) (text : GoString) : 5 ≤ args.length → readProperties args fetch = .ok ps →
      SortResult ps sorted →
      propertySource (args.getD 3 []) (mainURL args) date (generatorFlags args (lit "gencat")).isSome sorted = some text →
      GeneratesFrom args fetch date (.source text)

end GoTable
