import Verif.Spec.GoSource
/-!
# Specification: the lines of a file, and a source file with tables of ranges
-/

namespace GoTable.Spec

/-- `line` is `raw` without the carriage return at its end, if there is one. -/
def Chopped (raw line : GoString) : Prop := raw = line ++ [0x0D] ∨ (raw = line ∧ raw.getLast? ≠ some 0x0D)

/-- The lines of a file, none of them of 65536 bytes or more. The last line may lack its line end; then it may have
65536 bytes if the end is reported promptly, that is, together with the last bytes. -/
inductive LinesOf (prompt : Bool) : GoString → List GoString → Prop
  | done : LinesOf prompt [] []
  | last (raw line : GoString) (hne : raw ≠ []) (hnl : 0x0A ∉ raw)
    (hlen : raw.length < 65536 ∨ prompt = true ∧ raw.length = 65536) (hc : Chopped raw line) : LinesOf prompt raw [line]
  | line (raw line rest : GoString) (lines : List GoString) (hnl : 0x0A ∉ raw) (hlen : raw.length < 65536)
    (hc : Chopped raw line) (h : LinesOf prompt rest lines) : LinesOf prompt (raw ++ 0x0A :: rest) (line :: lines)

/-- Everything before a line of 65536 bytes or more: whole lines. `rest` is that line and all that follows; it is not just
65536 bytes whose end is reported promptly. -/
structure CutAtLongLine (prompt : Bool) (bytes pre rest : GoString) : Prop where
  split : bytes = pre ++ rest
  whole : pre = [] ∨ pre.getLast? = some 0x0A
  long : 65536 ≤ (rest.takeWhile (· != 0x0A)).length
  more : ¬ (prompt = true ∧ rest.length = 65536)

/-- A hexadecimal literal for the number. -/
def NumberWord (w : GoString) (n : Nat) : Prop :=
  ∃ d, w = lit "0x" ++ d ∧ d ≠ [] ∧ (∀ b ∈ d, HexDigit b) ∧ hexNumber d = n

/-- The tokens of the elements `{lo, hi},` of a table. -/
inductive RowTokens : List GoString → List (Nat × Nat) → Prop
  | nil : RowTokens [] []
  | cons (v w : GoString) (lo hi : Nat) (ts : List GoString) (arr : List (Nat × Nat)) (hv : NumberWord v lo)
    (hw : NumberWord w hi) (h : RowTokens ts arr) :
    RowTokens ([lit "{", v, lit ",", w, lit "}", lit ","] ++ ts) ((lo, hi) :: arr)

/-- The tokens of declarations `var name = table{…}`, one after the other. -/
inductive Declarations : List GoString → List (GoString × List (Nat × Nat)) → Prop
  | nil : Declarations [] []
  | cons (name : GoString) (arr : List (Nat × Nat)) (rows ts : List GoString) (decls : List (GoString × List (Nat × Nat)))
    (hr : RowTokens rows arr) (h : Declarations ts decls) :
    Declarations ([lit "var", name, lit "=", lit "table", lit "{"] ++ rows ++ [lit "}", lit ";"] ++ ts)
      ((name, arr) :: decls)

/-- The text, read as Go source, is a file of package `runewidth` with these tables and nothing else. -/
def DeclaresTables (text : GoString) (decls : List (GoString × List (Nat × Nat))) : Prop :=
  ∃ ts, goTokens text = some ([lit "package", lit "runewidth", lit ";"] ++ ts) ∧ Declarations ts decls

/-- Where a token may begin there is a `0x` with a minus sign after it: a hexadecimal literal without digits, which is not
Go. -/
def HexWithoutDigits (text : GoString) : Prop :=
  ∃ pre post semicolon ts, text = pre ++ lit "0x-" ++ post ∧ readBytes (.code false) pre = some (.code semicolon, ts)

/-- The command line asks the generator of the property tables to read the file at this URL. -/
def Wanted (args : List GoString) (url : GoString) : Prop :=
  (∃ file, args[1]? = some file ∧ file ≠ lit "-" ∧
    url = lit "https://www.unicode.org/Public/14.0.0/ucd/" ++ file ++ lit ".txt") ∨
  (∃ p, GivenFlag args (lit "emojis") p ∧ p ≠ [] ∧
    url = lit "https://unicode.org/Public/14.0.0/ucd/emoji/emoji-data.txt")

end GoTable.Spec
