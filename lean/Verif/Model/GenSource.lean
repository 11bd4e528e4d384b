import Verif.Model.GenProperties
/-!
# /repo/runewidth/uniseg/gen_properties.go: the command line and the generated source

Fetching a file is modelled as a function from the URL to the lines of the file and taken to succeed; the current date
is a parameter; gofmt and writing the file are not modelled.
-/

namespace GoTable

/-- `strings.Split(s, sep)` for a separator of one byte (standard library contract). -/
def splitByte (sep : UInt8) : GoString → List GoString
  | [] => [[]]
  | b :: t =>
    if b = sep then [] :: splitByte sep t
    else
      match splitByte sep t with
      | [] => [[b]]
      | f :: fs => (b :: f) :: fs

/-- The name and the value of a flag, /repo/runewidth/uniseg/gen_properties.go:66-71. -/
def flagPair (flag : GoString) : GoString × GoString :=
  match splitByte 0x3D flag with
  | [] => ([], lit "yes")
  | [k] => (k, lit "yes")
  | k :: v :: _ => (k, v)

/-- One round of the loop over the flags, /repo/runewidth/uniseg/gen_properties.go:66-71, on the map of the flags. -/
def addFlag (flags : GoString → Option GoString) (flag : GoString) : GoString → Option GoString :=
  fun x => if x = (flagPair flag).1 then some (flagPair flag).2 else flags x

/-- The flags, /repo/runewidth/uniseg/gen_properties.go:63-73. `args` is `os.Args`, which starts with the name of the
program. -/
def generatorFlags (args : List GoString) : GoString → Option GoString :=
  match args[5]? with
  | none => fun _ => none
  | some flags => (splitByte 0x2C flags).foldl addFlag fun _ => none

/-- /repo/runewidth/uniseg/gen_properties.go:42 `propertyURL` with the name of the data file filled in. -/
def propertyURL (file : GoString) : GoString := lit "https://www.unicode.org/Public/14.0.0/ucd/" ++ file ++ lit ".txt"
/-- /repo/runewidth/uniseg/gen_properties.go:43 -/
def emojiURL : GoString := lit "https://unicode.org/Public/14.0.0/ucd/emoji/emoji-data.txt"

/-- `mainURL`, /repo/runewidth/uniseg/gen_properties.go:77-80; empty if there is no main file. -/
def mainURL (args : List GoString) : GoString :=
  if args.getD 1 [] ≠ lit "-" then propertyURL (args.getD 1 []) else []

/-- The header, /repo/runewidth/uniseg/gen_properties.go:191-214. The test in line 199 is about the constant of line 43,
which is not empty. -/
def sourceHeader (name url date : GoString) (columns : GoString) : GoString :=
  lit "package uniseg\n\n// Code generated via go generate from gen_properties.go. DO NOT EDIT.\n\n// " ++ name ++
  lit " are taken from\n// " ++ url ++
  (if emojiURL ≠ [] then lit "\n// and\n// " ++ emojiURL ++ lit "\n// (\"Extended_Pictographic\" only)" else []) ++
  lit "\n// on " ++ date ++ lit ". See https://www.unicode.org/license.html for the Unicode\n// license agreement.\nvar " ++
  name ++ lit " = [][" ++ columns ++ lit "]int{\n\t"

/-- One line of the table, /repo/runewidth/uniseg/gen_properties.go:218-227; `none` is the panic of slicing a comment
that is too short. -/
def sourceEntry (gencat : Bool) (p : PropertyText) : Option GoString :=
  if gencat then
    if p.comment.length < 2 then none
    else
      let category := lit "gc" ++ p.comment.take 2
      let category := if category = lit "gcL&" then lit "gcLC" else category
      if p.comment.length < 3 then none
      else
        some (lit "{0x" ++ p.from_ ++ lit ",0x" ++ p.to ++ lit "," ++ translateProperty (lit "pr") p.property ++ lit "," ++
          category ++ lit "}, // " ++ p.comment.drop 3 ++ lit "\n")
  else
    some (lit "{0x" ++ p.from_ ++ lit ",0x" ++ p.to ++ lit "," ++ translateProperty (lit "pr") p.property ++
      lit "}, // " ++ p.comment ++ lit "\n")

/-- The source `parse` returns, /repo/runewidth/uniseg/gen_properties.go:190-233, once the properties are sorted;
`none` is a panic. -/
def propertySource (name url date : GoString) (gencat : Bool) (props : List PropertyText) : Option GoString :=
  (props.mapM (sourceEntry gencat)).map fun entries =>
    sourceHeader name url date (if gencat then lit "4" else lit "3") ++ entries.flatten ++ lit "}"

/-- How the generator ends. -/
inductive GenOutcome where
  /-- line 55 -/
  | notEnoughArguments
  /-- line 83 -/
  | failed (e : GenError)
  /-- lines 219 and 223 -/
  | panicked
  /-- the text that is given to gofmt in line 87 -/
  | source (text : GoString)
deriving DecidableEq, Repr

/-- What is read of the first file, /repo/runewidth/uniseg/gen_properties.go:115. -/
def mainInput (args : List GoString) (fetch : GoString → List GoString) : Option (List GoString) :=
  if mainURL args ≠ [] then some (fetch (mainURL args)) else none

/-- What is read of the emoji file, and for which property, /repo/runewidth/uniseg/gen_properties.go:149. -/
def emojiInput (args : List GoString) (fetch : GoString → List GoString) : Option (GoString × List GoString) :=
  let property := (generatorFlags args (lit "emojis")).getD []
  if property ≠ [] then some (property, fetch emojiURL) else none

/-- /repo/runewidth/uniseg/gen_properties.go:53-87: the ways a run of the generator may end. There can be more than
one because the sort is not stable. -/
inductive Generates (args : List GoString) (fetch : GoString → List GoString) (date : GoString) : GenOutcome → Prop
  | notEnough : args.length < 5 → Generates args fetch date .notEnoughArguments
  | failed (e : GenError) : 5 ≤ args.length → parseFiles (mainInput args fetch) (emojiInput args fetch) = .error e →
      Generates args fetch date (.failed e)
  | panicked (ps sorted : List PropertyText) : 5 ≤ args.length →
      parseFiles (mainInput args fetch) (emojiInput args fetch) = .ok ps → SortResult ps sorted →
      propertySource (args.getD 3 []) (mainURL args) date (generatorFlags args (lit "gencat")).isSome sorted = none →
      Generates args fetch date .panicked
  | source (ps sorted : List PropertyText) (text : GoString) : 5 ≤ args.length →
      parseFiles (mainInput args fetch) (emojiInput args fetch) = .ok ps → SortResult ps sorted →
      propertySource (args.getD 3 []) (mainURL args) date (generatorFlags args (lit "gencat")).isSome sorted = some text →
      Generates args fetch date (.source text)

end GoTable
