import Verif.Spec.Ansi
/-!
# Specification: the escape sequences in a text

Which stretches of a text count as escape sequences, said without a regular expression engine: what an
escape sequence looks like, and that they are found from left to right, each one as long as possible.
-/

namespace GoTable.Spec

/-- ESC, or U+009B in UTF-8. -/
def introducers : List GoString := [[0x1B], [0xC2, 0x9B]]

/-- One to four digits, then any number of parameters of up to four digits, each after a semicolon. -/
def Params (p : GoString) : Prop :=
  ∃ (d : GoString) (ds : List GoString), d ≠ [] ∧ Param d ∧ (∀ x ∈ ds, Param x) ∧
    p = d ++ ds.flatMap fun x => 0x3B :: x

/-- An escape sequence: an introducer, any of `[()#;?`, parameters or not, and a final character. -/
def EscapeSequence (e : GoString) : Prop :=
  ∃ lead pre params fin, e = lead ++ (pre ++ (params ++ [fin])) ∧ lead ∈ introducers ∧
    (∀ b ∈ pre, b ∈ lit "[()#;?") ∧ (params = [] ∨ Params params) ∧
    fin ∈ lit "0123456789ABCDEFGHIJKLMNORZcfghijklmnqry=><"

/-- `e` is the longest escape sequence at the start of `s`. -/
def LongestEscape (s e : GoString) : Prop :=
  EscapeSequence e ∧ e <+: s ∧ ∀ e', EscapeSequence e' → e' <+: s → e'.length ≤ e.length

/-- No escape sequence of `t ++ rest` starts inside `t`. -/
def NoneStartsIn (t rest : GoString) : Prop :=
  ∀ x y, t = x ++ y → y ≠ [] → ∀ e, EscapeSequence e → ¬ e <+: y ++ rest

/-- A text cut at its escape sequences: plain text `t0`, then each escape sequence with the plain text
after it. From left to right, the first escape sequence that starts anywhere, as long as possible, and so
on after it. -/
inductive Cut : GoString → GoString → List (GoString × GoString) → Prop
  | plain (t : GoString) : NoneStartsIn t [] → Cut t t []
  | escape (t e s t' : GoString) (l : List (GoString × GoString)) : NoneStartsIn t (e ++ s) →
      LongestEscape (e ++ s) e → Cut s t' l → Cut (t ++ (e ++ s)) t ((e, t') :: l)

/-- Led by U+009B rather than ESC. -/
def LedBy9b (e : GoString) : Prop := [0xC2, 0x9B] <+: e

instance (e : GoString) : Decidable (LedBy9b e) := by unfold LedBy9b; infer_instance

/-- The plain text alone. -/
def plainText (t0 : GoString) (l : List (GoString × GoString)) : GoString := t0 ++ l.flatMap Prod.snd

end GoTable.Spec
