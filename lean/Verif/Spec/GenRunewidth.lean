import Verif.Spec.GenProperties
/-!
# Specification: lines of EastAsianWidth.txt and emoji-data.txt, and table source
-/

namespace GoTable.Spec

/-- A number below 2^31 in hexadecimal digits. -/
def NumberText (d : GoString) (n : Nat) : Prop := d ≠ [] ∧ (∀ b ∈ d, HexDigit b) ∧ hexNumber d = n ∧ n < 2 ^ 31

/-- `lo..hi`, or a single number. -/
def RangeText (s : GoString) (lo hi : Nat) : Prop :=
  (NumberText s lo ∧ hi = lo) ∨ ∃ d e, s = d ++ [0x2E, 0x2E] ++ e ∧ NumberText d lo ∧ NumberText e hi

/-- Nothing, or a space and anything. -/
def EndOrSpace (s : GoString) : Prop := s = [] ∨ ∃ t, s = 0x20 :: t

/-- A line `range;class` followed by nothing or by a space and more. -/
def WidthLine (line : GoString) (lo hi : Nat) (cls : GoString) : Prop :=
  ∃ range rest, line = range ++ [0x3B] ++ cls ++ rest ∧ RangeText range lo hi ∧ cls ≠ [] ∧
    (∀ b ∈ cls, 0x21 ≤ b.toNat ∧ b.toNat ≤ 0x7E) ∧ EndOrSpace rest

/-- A line starting with a range followed by nothing or by a space and more. -/
def EmojiLine (line : GoString) (lo hi : Nat) : Prop :=
  ∃ range rest, line = range ++ rest ∧ RangeText range lo hi ∧ EndOrSpace rest

/-- An empty line or a comment. -/
def NoData (line : GoString) : Prop := line = [] ∨ line.head? = some 0x23

/-- White space other than line ends, any amount of it. -/
def Blanks (s : GoString) : Prop := ∃ cs : List Nat, (∀ c ∈ cs, c ∈ whiteSpace ∧ c ≠ 0x0A) ∧ s = (cs.map encode).flatten

/-- The text ends, or goes on with white space other than a line end. -/
def FieldEnd (s : GoString) : Prop := s = [] ∨ ∃ c ∈ whiteSpace, c ≠ 0x0A ∧ encode c <+: s

/-- A hexadecimal digit of either case. -/
def AnyHexDigit (b : UInt8) : Prop := HexDigit b ∨ 0x61 ≤ b.toNat ∧ b.toNat ≤ 0x66

/-- A to F for a to f. -/
def upperHexDigit (b : UInt8) : UInt8 := if 0x61 ≤ b.toNat then b - 0x20 else b

/-- `s` starts with a hexadecimal number that fits in 32 bits, white space and a sign allowed before it, and goes on with
`rest`. -/
def StartsWithNumber (s : GoString) (n : Int) (rest : GoString) : Prop :=
  ∃ blanks sign digits, s = blanks ++ sign ++ digits ++ rest ∧ Blanks blanks ∧ digits ≠ [] ∧
    (∀ b ∈ digits, AnyHexDigit b) ∧ (∀ b, rest.head? = some b → ¬ AnyHexDigit b) ∧
    ((sign = [] ∨ sign = [0x2B]) ∧ n = hexNumber (digits.map upperHexDigit) ∨
      sign = [0x2D] ∧ n = -hexNumber (digits.map upperHexDigit)) ∧ -2 ^ 31 ≤ n ∧ n < 2 ^ 31

/-- The text with U+FFFD for every byte that is not part of valid UTF-8. -/
def validText (s : GoString) : GoString := ((runes s).map encode).flatten

/-- `s` starts with the word, white space allowed before it and required after it unless the text ends. Bytes that are
not valid are read as U+FFFD. -/
def StartsWithWord (s word : GoString) : Prop :=
  ∃ blanks raw rest, s = blanks ++ raw ++ rest ∧ Blanks blanks ∧ raw ≠ [] ∧ (∀ c ∈ whiteSpace, ¬ encode c <:+: raw) ∧
    FieldEnd rest ∧ word = validText raw

/-- `s` starts with a number or with two and `..` between them, and goes on with `rest`. -/
def StartsWithRange (s : GoString) (lo hi : Int) (rest : GoString) : Prop :=
  (StartsWithNumber s lo rest ∧ hi = lo) ∨
    ∃ t, StartsWithNumber s lo ([0x2E, 0x2E] ++ t) ∧ StartsWithNumber t hi rest

/-- The entries `{0xd, 0xe},` of a table, white space left out. -/
inductive Entries : GoString → List (Nat × Nat) → Prop where
  | nil : Entries [] []
  | cons (d e text : GoString) (lo hi : Nat) (arr : List (Nat × Nat)) (hd : d ≠ [] ∧ ∀ b ∈ d, HexDigit b)
      (he : e ≠ [] ∧ ∀ b ∈ e, HexDigit b) (hlo : hexNumber d = lo) (hhi : hexNumber e = hi) (h : Entries text arr) :
      Entries ([0x7B, 0x30, 0x78] ++ d ++ [0x2C, 0x30, 0x78] ++ e ++ [0x7D, 0x2C] ++ text) ((lo, hi) :: arr)

/-- The text is Go source `var v = table{…}` with these ranges, white space between the tokens aside. -/
def TableSource (text v : GoString) (arr : List (Nat × Nat)) : Prop :=
  ∃ body entries, text = lit "var " ++ v ++ lit " = table{" ++ body ++ lit "}\n" ∧
    body.filter (fun b => b != 0x20 && b != 0x09 && b != 0x0A) = entries ∧ Entries entries arr

end GoTable.Spec
