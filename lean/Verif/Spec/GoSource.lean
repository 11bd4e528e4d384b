import Verif.Spec.GenProperties
/-!
# Reading Go source

As much of the lexical structure of Go (language specification, "Lexical elements") as the generated files need: blanks,
line comments, words, some punctuation, and the semicolons that line ends stand for. Source with anything else
(`/* */` comments, strings, operators, other characters) has no reading here.
-/

namespace GoTable.Spec

/-- The punctuation that is allowed. -/
def punctuation : List UInt8 := [0x2C, 0x3B, 0x3D, 0x5B, 0x5D, 0x7B, 0x7D]

/-- Where in a line the reader is: among the tokens, in a word, after a first slash, in a comment. `semicolon` says
that a line end now would stand for a semicolon. -/
inductive ReadMode where
  | code (semicolon : Bool)
  | word (w : GoString)
  | slash (semicolon : Bool)
  | comment (semicolon : Bool)
deriving DecidableEq

instance (b : UInt8) : Decidable (WordByte b) := by unfold WordByte; infer_instance

/-- A byte among the tokens. -/
def readCode (semicolon : Bool) (b : UInt8) : Option (ReadMode × List GoString) :=
  if b = 0x20 ∨ b = 0x09 ∨ b = 0x0D then some (.code semicolon, [])
  else if b = 0x0A then some (.code false, if semicolon then [[0x3B]] else [])
  else if b = 0x2F then some (.slash semicolon, [])
  else if WordByte b then some (.word [b], [])
  else if b ∈ punctuation then some (.code (b = 0x5D || b = 0x7D), [[b]])
  else none

/-- A line that ends after this word ends a statement: the word is not `package` or `var`. -/
def endsStatement (w : GoString) : Bool :=
  w ≠ [0x70, 0x61, 0x63, 0x6B, 0x61, 0x67, 0x65] && w ≠ [0x76, 0x61, 0x72]

/-- One byte of source. -/
def readByte : ReadMode → UInt8 → Option (ReadMode × List GoString)
  | .code semicolon, b => readCode semicolon b
  | .word w, b =>
    if WordByte b then some (.word (w ++ [b]), [])
    else (readCode (endsStatement w) b).map fun r => (r.1, w :: r.2)
  | .slash semicolon, b => if b = 0x2F then some (.comment semicolon, []) else none
  | .comment semicolon, b =>
    if b = 0x0A then some (.code false, if semicolon then [[0x3B]] else []) else some (.comment semicolon, [])

/-- Some bytes of source: where they leave the reader, and their tokens. -/
def readBytes : ReadMode → GoString → Option (ReadMode × List GoString)
  | m, [] => some (m, [])
  | m, b :: s =>
    match readByte m b with
    | none => none
    | some (m', t) => (readBytes m' s).map fun r => (r.1, t ++ r.2)

/-- The end of the source. -/
def readEnd : ReadMode → Option (List GoString)
  | .code semicolon => some (if semicolon then [[0x3B]] else [])
  | .word w => some (w :: if endsStatement w then [[0x3B]] else [])
  | .slash _ => none
  | .comment semicolon => some (if semicolon then [[0x3B]] else [])

/-- The tokens of a source text. -/
def goTokens (s : GoString) : Option (List GoString) :=
  match readBytes (.code false) s with
  | none => none
  | some (m, t) => (readEnd m).map (t ++ ·)

/-- The tokens of `package uniseg` and the declaration `var name = [][columns]int{ rows }`, where every row is
`{ x, …, z },`. -/
def tableTokens (name columns : GoString) (rows : List (List GoString)) : List GoString :=
  [lit "package", lit "uniseg", lit ";", lit "var", name, lit "=", lit "[", lit "]", lit "[", columns, lit "]", lit "int",
    lit "{"] ++
  rows.flatMap (fun row => [lit "{"] ++ row.intersperse (lit ",") ++ [lit "}", lit ","]) ++
  [lit "}", lit ";"]

/-- A flag of the generator with name `k` and value `v`: `k` alone, with the value `yes`, or `k=v`, which may be followed
by another `=` and anything. -/
def FlagIs (flag k v : GoString) : Prop :=
  0x3D ∉ k ∧ (flag = k ∧ v = lit "yes" ∨ ∃ rest, flag = k ++ [0x3D] ++ v ++ rest ∧ 0x3D ∉ v ∧ (rest = [] ∨ rest.head? = some 0x3D))

/-- Among the flags, the last one with the name `k` has the value `v`. -/
def LastFlag (flags : List GoString) (k v : GoString) : Prop :=
  ∃ pre flag post, flags = pre ++ flag :: post ∧ FlagIs flag k v ∧ ∀ g ∈ post, ∀ v', ¬ FlagIs g k v'

/-- The command line `args` gives the flag `k`, and the last time with the value `v`. The flags are the sixth argument,
counting the name of the program. -/
def GivenFlag (args : List GoString) (k v : GoString) : Prop :=
  ∃ flags, flags ≠ [] ∧ (∀ f ∈ flags, 0x2C ∉ f) ∧ args[5]? = some (List.intercalate [0x2C] flags) ∧ LastFlag flags k v

/-- What the command line asks to read: the lines of the named file, unless the name is `-`, and the lines of the emoji
file together with the property asked for, unless that is empty. -/
structure Sources (args : List GoString) (fetch : GoString → List GoString) (main : Option (List GoString))
    (emoji : Option (GoString × List GoString)) : Prop where
  skipped : args[1]? = some (lit "-") → main = none
  named : ∀ file, args[1]? = some file → file ≠ lit "-" →
    main = some (fetch (lit "https://www.unicode.org/Public/14.0.0/ucd/" ++ file ++ lit ".txt"))
  emojis : ∀ p, GivenFlag args (lit "emojis") p → p ≠ [] →
    emoji = some (p, fetch (lit "https://unicode.org/Public/14.0.0/ucd/emoji/emoji-data.txt"))
  noEmojis : (∀ p, GivenFlag args (lit "emojis") p → p = []) → emoji = none

end GoTable.Spec
