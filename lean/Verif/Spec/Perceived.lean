import Verif.Spec.PlainText
/-!
# Specification: characters with marks, flags, joined emoji
-/

namespace GoTable.Spec

/-- Accents, vowel signs, variation selectors, skin tones, enclosing keycaps: what goes with the character before it. -/
def Mark (r : Nat) : Prop := classOf r = .extend ∨ classOf r = .spacingMark

instance (r : Nat) : Decidable (Mark r) := by unfold Mark; infer_instance

/-- One or more emoji, each with variation selectors or a skin tone, joined by U+200D. -/
inductive JoinedEmoji : List Nat → Prop
  | one (r : Nat) (marks : List Nat) (hr : classOf r = .extPict) (hm : ∀ m ∈ marks, classOf m = .extend) :
      JoinedEmoji (r :: marks)
  | join (u : List Nat) (r : Nat) (marks : List Nat) (hu : JoinedEmoji u) (hr : classOf r = .extPict)
      (hm : ∀ m ∈ marks, classOf m = .extend) : JoinedEmoji (u ++ 0x200D :: r :: marks)

/-- What a reader takes for one character: a character with marks, a flag (two regional indicators) with marks, joined
emoji. -/
inductive Perceived : List Nat → Prop
  | marked (r : Nat) (marks : List Nat) (hr : Alone r) (hm : ∀ m ∈ marks, Mark m) : Perceived (r :: marks)
  | flag (a b : Nat) (marks : List Nat) (ha : classOf a = .ri) (hb : classOf b = .ri) (hm : ∀ m ∈ marks, Mark m) :
      Perceived (a :: b :: marks)
  | emoji (u : List Nat) (hu : JoinedEmoji u) : Perceived u

/-- A regional indicator symbol. -/
def Regional (r : Nat) : Prop := 0x1F1E6 ≤ r ∧ r ≤ 0x1F1FF

end GoTable.Spec
