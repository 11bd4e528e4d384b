import Verif.Model.Tables.Grapheme
import Verif.Model.Tables.EastAsian
import Verif.Model.Tables.Emoji
import Verif.Model.RuneWidth
/-!
# /repo/runewidth/uniseg: property lookup, grapheme parser, iterator; StringWidth
-/

namespace GoTable

/-- The loop of `propertySearch`, /repo/runewidth/uniseg/properties.go:103-118. The hypothesis keeps
`dictionary[middle]` in range by construction. -/
def propertySearchLoop (dictionary : List (Nat × Nat × Nat)) (r : Nat) (from_ to_ : Nat)
    (h : to_ ≤ dictionary.length) : Nat × Nat × Nat :=
  if hlt : from_ < to_ then
    let middle := (from_ + to_) / 2
    let cpRange := dictionary[middle]'(by omega)
    if r < cpRange.1 then propertySearchLoop dictionary r from_ middle (by omega)
    else if cpRange.2.1 < r then propertySearchLoop dictionary r (middle + 1) to_ h
    else cpRange
  else (0, 0, 0)
termination_by to_ - from_
decreasing_by all_goals omega

/-- /repo/runewidth/uniseg/properties.go:101-119 `propertySearch`. -/
def propertySearch (dictionary : List (Nat × Nat × Nat)) (r : Nat) : Nat × Nat × Nat :=
  propertySearchLoop dictionary r 0 dictionary.length (Nat.le_refl _)

/-- /repo/runewidth/uniseg/properties.go:123-125 `property`. -/
def property (dictionary : List (Nat × Nat × Nat)) (r : Nat) : Nat :=
  (propertySearch dictionary r).2.2

/-- /repo/runewidth/uniseg/properties.go:94 -/
abbrev vs15 : Nat := 0xfe0e
/-- /repo/runewidth/uniseg/properties.go:95 -/
abbrev vs16 : Nat := 0xfe0f

/-- /repo/runewidth/uniseg/width.go:16-42 `runeWidth`. -/
def usRuneWidth (r : Nat) (graphemeProperty : Nat) : Nat :=
  if graphemeProperty = prControl ∨ graphemeProperty = prCR ∨ graphemeProperty = prLF ∨
      graphemeProperty = prExtend ∨ graphemeProperty = prZWJ then 0
  else if graphemeProperty = prRegionalIndicator then 2
  else if graphemeProperty = prExtendedPictographic then
    if property emojiPresentation r = prEmojiPresentation then 2 else 1
  else if r = 0x2e3a then 3
  else if r = 0x2e3b then 4
  else if property eastAsianWidth r = prW ∨ property eastAsianWidth r = prF then 2
  else 1

/-! Parser states, /repo/runewidth/uniseg/graphemerules.go:4-16. -/
abbrev grAny : Nat := 0
abbrev grCR : Nat := 1
abbrev grControlLF : Nat := 2
abbrev grL : Nat := 3
abbrev grLVV : Nat := 4
abbrev grLVTT : Nat := 5
abbrev grPrepend : Nat := 6
abbrev grExtendedPictographic : Nat := 7
abbrev grExtendedPictographicZWJ : Nat := 8
abbrev grRIOdd : Nat := 9
abbrev grRIEven : Nat := 10

/-! Breaking instructions, /repo/runewidth/uniseg/graphemerules.go:19-22. -/
abbrev grNoBoundary : Nat := 0
abbrev grBoundary : Nat := 1

/-- /repo/runewidth/uniseg/graphemerules.go:40-92 `grTransitions`:
(state, property) ↦ (new state, breaking instruction, rule number). -/
def grTransitions : List ((Int × Nat) × (Nat × Nat × Nat)) := [
  -- GB5
  ((grAny, prCR), (grCR, grBoundary, 50)),
  ((grAny, prLF), (grControlLF, grBoundary, 50)),
  ((grAny, prControl), (grControlLF, grBoundary, 50)),
  -- GB4
  ((grCR, prAny), (grAny, grBoundary, 40)),
  ((grControlLF, prAny), (grAny, grBoundary, 40)),
  -- GB3
  ((grCR, prLF), (grControlLF, grNoBoundary, 30)),
  -- GB6
  ((grAny, prL), (grL, grBoundary, 9990)),
  ((grL, prL), (grL, grNoBoundary, 60)),
  ((grL, prV), (grLVV, grNoBoundary, 60)),
  ((grL, prLV), (grLVV, grNoBoundary, 60)),
  ((grL, prLVT), (grLVTT, grNoBoundary, 60)),
  -- GB7
  ((grAny, prLV), (grLVV, grBoundary, 9990)),
  ((grAny, prV), (grLVV, grBoundary, 9990)),
  ((grLVV, prV), (grLVV, grNoBoundary, 70)),
  ((grLVV, prT), (grLVTT, grNoBoundary, 70)),
  -- GB8
  ((grAny, prLVT), (grLVTT, grBoundary, 9990)),
  ((grAny, prT), (grLVTT, grBoundary, 9990)),
  ((grLVTT, prT), (grLVTT, grNoBoundary, 80)),
  -- GB9
  ((grAny, prExtend), (grAny, grNoBoundary, 90)),
  ((grAny, prZWJ), (grAny, grNoBoundary, 90)),
  -- GB9a
  ((grAny, prSpacingMark), (grAny, grNoBoundary, 91)),
  -- GB9b
  ((grAny, prPrepend), (grPrepend, grBoundary, 9990)),
  ((grPrepend, prAny), (grAny, grNoBoundary, 92)),
  -- GB11
  ((grAny, prExtendedPictographic), (grExtendedPictographic, grBoundary, 9990)),
  ((grExtendedPictographic, prExtend), (grExtendedPictographic, grNoBoundary, 110)),
  ((grExtendedPictographic, prZWJ), (grExtendedPictographicZWJ, grNoBoundary, 110)),
  ((grExtendedPictographicZWJ, prExtendedPictographic), (grExtendedPictographic, grNoBoundary, 110)),
  -- GB12 / GB13
  ((grAny, prRegionalIndicator), (grRIOdd, grBoundary, 9990)),
  ((grRIOdd, prRegionalIndicator), (grRIEven, grNoBoundary, 120)),
  ((grRIEven, prRegionalIndicator), (grRIOdd, grBoundary, 120))]

/-- Result of `transitionGraphemeState`. -/
structure Transition where
  newState : Nat
  prop : Nat
  boundary : Bool
deriving DecidableEq, Repr

/-- `transitionGraphemeState` after line 100, as a function of the property,
/repo/runewidth/uniseg/graphemerules.go:102-137. The state is an `Int` since the parser is started
with -1. -/
def transitionProp (state : Int) (prop : Nat) : Transition :=
  match grTransitions.lookup (state, prop) with
  | some tr => ⟨tr.1, prop, tr.2.1 == grBoundary⟩
  | none =>
    match grTransitions.lookup (state, prAny), grTransitions.lookup ((grAny : Int), prop) with
    | some anyProp, some anyState =>
      ⟨anyState.1, prop,
        if anyProp.2.2 < anyState.2.2 then anyProp.2.1 == grBoundary
        else anyState.2.1 == grBoundary⟩
    | some anyProp, none => ⟨anyProp.1, prop, anyProp.2.1 == grBoundary⟩
    | none, some anyState => ⟨anyState.1, prop, anyState.2.1 == grBoundary⟩
    | none, none => ⟨grAny, prop, true⟩

/-- /repo/runewidth/uniseg/graphemerules.go:98-138 `transitionGraphemeState`. -/
def transitionGraphemeState (state : Int) (r : Nat) : Transition :=
  transitionProp state (property graphemeCodePoints r)

/-- /repo/runewidth/uniseg/step.go:7 -/
abbrev ShiftWidth : Nat := 4
/-- /repo/runewidth/uniseg/step.go:14 -/
abbrev shiftPropState : Nat := 21
/-- /repo/runewidth/uniseg/step.go:20 -/
abbrev maskGraphemeState : Nat := 0xf

/-- The four results of `StepString`. Widths and returned states are never negative in Go either. -/
structure StepResult where
  cluster : GoString
  rest : GoString
  boundaries : Nat
  newState : Nat
deriving DecidableEq, Repr

/-- The loop of `StepString`, /repo/runewidth/uniseg/step.go:87-119. At its head the Go variable
`remainder` is always `str[length:]`, so the model has no separate variable for it. -/
def stepLoop (str : GoString) (length graphemeState firstProp width : Nat) : StepResult :=
  let r := (decodeRune (str.drop length)).1
  let l := (decodeRune (str.drop length)).2
  let tr := transitionGraphemeState graphemeState r
  if tr.boundary then
    ⟨str.take length, str.drop length, width <<< ShiftWidth,
      tr.newState ||| (tr.prop <<< shiftPropState)⟩
  else
    let width :=
      if r = vs16 then 2
      else if firstProp ≠ prExtendedPictographic ∧ firstProp ≠ prRegionalIndicator ∧
          firstProp ≠ prL then width + usRuneWidth r tr.prop
      else if firstProp = prExtendedPictographic then
        if r = vs15 then 1 else 2
      else width
    if _h : str.length ≤ length + l then
      ⟨str, [], width <<< ShiftWidth, grAny ||| (tr.prop <<< shiftPropState)⟩
    else stepLoop str (length + l) tr.newState firstProp width
termination_by str.length - length
decreasing_by
  have h1 : str.drop length ≠ [] := by
    intro h2
    have := congrArg List.length h2
    simp at this; omega
  have := decodeRune_size _ h1
  omega

/-- /repo/runewidth/uniseg/step.go:62-120 `StepString`. -/
def stepString (str : GoString) (state : Int) : StepResult :=
  if str.length = 0 then ⟨[], [], 0, 0⟩
  else
    let r := (decodeRune str).1
    let length := (decodeRune str).2
    if str.length ≤ length then
      let prop := property graphemeCodePoints r
      ⟨str, [], usRuneWidth r prop <<< ShiftWidth, grAny⟩
    else
      let graphemeState :=
        if state < 0 then (transitionGraphemeState state r).newState
        else state.toNat &&& maskGraphemeState
      let firstProp :=
        if state < 0 then (transitionGraphemeState state r).prop
        else state.toNat >>> shiftPropState
      stepLoop str length graphemeState firstProp (usRuneWidth r firstProp)

/-- /repo/runewidth/uniseg/grapheme.go:17-36 `type Graphemes`. -/
structure Graphemes where
  original : GoString
  remaining : GoString
  cluster : GoString
  offset : Nat
  boundaries : Nat
  state : Int
deriving DecidableEq, Repr

/-- /repo/runewidth/uniseg/grapheme.go:39-45 `NewGraphemes`. -/
def newGraphemes (str : GoString) : Graphemes :=
  { original := str, remaining := str, cluster := [], offset := 0, boundaries := 0, state := -1 }

/-- /repo/runewidth/uniseg/grapheme.go:50-60 `(*Graphemes).Next`: the result and the updated iterator. -/
def Graphemes.next (g : Graphemes) : Bool × Graphemes :=
  if g.remaining.length = 0 then (false, { g with state := -2, cluster := [] })
  else
    let s := stepString g.remaining g.state
    (true, { g with
      offset := g.offset + g.cluster.length
      cluster := s.cluster
      remaining := s.rest
      boundaries := s.boundaries
      state := s.newState })

/-- /repo/runewidth/uniseg/grapheme.go:65-70 `(*Graphemes).Runes`; Go's nil is `none`. -/
def Graphemes.runes (g : Graphemes) : Option (List Nat) :=
  if g.state < 0 then none else some (GoTable.runes g.cluster)

/-- The inner loop of `StringWidth`, /repo/runewidth/runewidth.go:187-193: the width of the first rune
of non-zero width, else 0. `w` is the width of a rune. -/
def clusterWidth (w : Nat → Nat) : List Nat → Nat
  | [] => 0
  | r :: rs => if 0 < w r then w r else clusterWidth w rs

theorem stepLoop_rest_lt (str : GoString) (length gs fp w : Nat) (h : 0 < length) (hs : str ≠ []) :
    (stepLoop str length gs fp w).rest.length < str.length := by
  have hpos : 0 < str.length := List.length_pos_iff.mpr hs
  fun_induction stepLoop str length gs fp w with
  | case1 => simp; omega
  | case2 => simpa using hpos
  | case3 length gs w r l tr hb w' hlt ih => apply ih; omega

theorem stepString_rest_lt (str : GoString) (state : Int) (h : str ≠ []) :
    (stepString str state).rest.length < str.length := by
  have hpos : 0 < str.length := List.length_pos_iff.mpr h
  unfold stepString
  dsimp only
  split
  · omega
  · by_cases hl : str.length ≤ (decodeRune str).2
    · simpa [hl] using hpos
    rw [if_neg hl]
    exact stepLoop_rest_lt _ _ _ _ _ (decodeRune_size str h).1 h

/-- The loop `for g.Next() { ... }` of `StringWidth`, /repo/runewidth/runewidth.go:186-195, collecting
the runes of each cluster in the order visited. -/
def clustersFrom (g : Graphemes) : List (List Nat) :=
  if _h : (g.next).1 = true then
    ((g.next).2.runes.getD []) :: clustersFrom (g.next).2
  else []
termination_by g.remaining.length
decreasing_by
  unfold Graphemes.next at _h ⊢
  split at _h
  · simp at _h
  · rename_i hne
    simp only [hne, ↓reduceIte]
    exact stepString_rest_lt _ _ (by intro h0; simp [h0] at hne)

/-- /repo/runewidth/runewidth.go:184-197 `StringWidth` for a condition without lookup table. -/
def stringWidth (f : Flags) (s : GoString) : Nat :=
  ((clustersFrom (newGraphemes s)).map (clusterWidth (fun r => runeWidth f r))).sum

/-- The inner loop of `StringWidth` on a condition that may carry a lookup table (`none`: index panic),
/repo/runewidth/runewidth.go:187-193. -/
def Condition.clusterWidth (c : Condition) : List Nat → Option Nat
  | [] => some 0
  | r :: rs =>
    match c.runeWidth r with
    | none => none
    | some w => if 0 < w then some w else Condition.clusterWidth c rs

/-- /repo/runewidth/runewidth.go:184-197 `(*Condition).StringWidth`. -/
def Condition.stringWidth (c : Condition) (s : GoString) : Option Nat :=
  ((clustersFrom (newGraphemes s)).mapM c.clusterWidth).map List.sum

end GoTable
