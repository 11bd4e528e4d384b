/-!
# Go strings and UTF-8 decoding

A Go `string` is a sequence of bytes, not necessarily valid UTF-8. The decoder below is the contract of
`unicode/utf8.DecodeRuneInString` (standard library, not in /repo); the code under study uses it in
/repo/runewidth/uniseg/step.go:69,93, through `[]rune(g.cluster)` in
/repo/runewidth/uniseg/grapheme.go:69, and through package regexp in /repo/width.go:45.
-/

namespace GoTable

/-- A Go `string`: its bytes. -/
abbrev GoString := List UInt8

/-- `utf8.RuneError`, U+FFFD. -/
abbrev runeError : Nat := 0xFFFD

/-- A UTF-8 continuation byte, 0x80..0xBF. -/
def isCont (b : UInt8) : Bool := 0x80 ≤ b.toNat && b.toNat ≤ 0xBF

/-- `utf8.DecodeRuneInString(s)`: the first rune and its size in bytes. Empty input gives
`(RuneError, 0)`, an invalid or truncated encoding gives `(RuneError, 1)`; overlong forms, surrogates
and values above 0x10FFFF are invalid. (Standard library contract. The bit operations of the Go
source are written as arithmetic here.) -/
def decodeRune (s : GoString) : Nat × Nat :=
  match s with
  | [] => (runeError, 0)
  | b0 :: t =>
    let n0 := b0.toNat
    if n0 < 0x80 then (n0, 1)
    else if n0 < 0xC2 then (runeError, 1)
    else if n0 < 0xE0 then
      match t with
      | b1 :: _ =>
        if isCont b1 then ((n0 - 0xC0) * 64 + (b1.toNat - 0x80), 2) else (runeError, 1)
      | [] => (runeError, 1)
    else if n0 < 0xF0 then
      match t with
      | b1 :: b2 :: _ =>
        let lo := if n0 = 0xE0 then 0xA0 else 0x80
        let hi := if n0 = 0xED then 0x9F else 0xBF
        if lo ≤ b1.toNat ∧ b1.toNat ≤ hi ∧ isCont b2 then
          ((n0 - 0xE0) * 4096 + (b1.toNat - 0x80) * 64 + (b2.toNat - 0x80), 3)
        else (runeError, 1)
      | _ => (runeError, 1)
    else if n0 < 0xF5 then
      match t with
      | b1 :: b2 :: b3 :: _ =>
        let lo := if n0 = 0xF0 then 0x90 else 0x80
        let hi := if n0 = 0xF4 then 0x8F else 0xBF
        if lo ≤ b1.toNat ∧ b1.toNat ≤ hi ∧ isCont b2 ∧ isCont b3 then
          ((n0 - 0xF0) * 262144 + (b1.toNat - 0x80) * 4096 + (b2.toNat - 0x80) * 64
            + (b3.toNat - 0x80), 4)
        else (runeError, 1)
      | _ => (runeError, 1)
    else (runeError, 1)

/-- Decoding never returns size 0 on non-empty input and never reads past the end. Needed for the
termination of the loops below. -/
theorem decodeRune_size (s : GoString) (h : s ≠ []) :
    1 ≤ (decodeRune s).2 ∧ (decodeRune s).2 ≤ s.length := by
  cases s with
  | nil => exact absurd rfl h
  | cons b t =>
    unfold decodeRune
    dsimp only
    repeat' split
    all_goals simp only [List.length_cons]
    all_goals omega

/-- All runes of a string with their encoded sizes, in order. -/
def tokens (s : GoString) : List (Nat × Nat) :=
  if _h : s = [] then []
  else decodeRune s :: tokens (s.drop (decodeRune s).2)
termination_by s.length
decreasing_by
  have := decodeRune_size s _h
  simp [List.length_drop]; omega

/-- `[]rune(s)`. -/
def runes (s : GoString) : List Nat := (tokens s).map Prod.fst

/-- `strings.Repeat(" ", n)`. -/
def spaces (n : Nat) : GoString := List.replicate n 0x20

/-- `strings.Join(parts, sep)` (standard library contract). -/
def join (sep : GoString) : List GoString → GoString
  | [] => []
  | [p] => p
  | p :: q :: ps => p ++ sep ++ join sep (q :: ps)

/-- The bytes of a Lean string literal; used to write Go string constants. -/
def lit (s : String) : GoString := s.toByteArray.toList

/-- Go conversion `uint16(i)` of an `int`: truncation modulo 2^16. -/
def u16 (i : Int) : UInt16 := UInt16.ofNat (i % 65536).toNat

end GoTable
