import Verif.Model.Cached
/-!
# Specification: what the width cache may and may not change
-/

namespace GoTable.Spec

variable {σ ι ν ε : Type}

/-- A getter, its measurements made from scratch. -/
def plainGetter (f : Flags) (g : GetterP σ ι ν ε) : Getter σ ι ν ε where
  value item st := (g.value item st).runPure f
  valueString n item st := (g.valueString n item st).runPure f
  format item v st := (g.format item v st).runPure f

/-- A column, its getter's and its alignment's measurements made from scratch. -/
def plainColumn (f : Flags) (c : ColumnP σ ι ν ε) : Column σ ι ν ε where
  getter := plainGetter f c.getter
  alignment := c.alignment.map fun al s w => (al s w).runPure f
  name := c.name
  title := c.title
  shortTitle := c.shortTitle

/-- A table as it would be without a cache. -/
def plainTable (f : Flags) (t : TableP σ ι ν ε) : Table σ ι ν ε where
  columns := t.columns.map (plainColumn f)
  columnWidth := t.columnWidth

/-- Every width in the cache is the width of its text. -/
def Sound (f : Flags) (c : Cache) : Prop := ∀ s w, c s = some w → w = visualWidth f s

/-- Calls of the measuring function, each under the settings of its moment and with evictions before
and after: the widths returned. -/
def widthsReturned : Cache → List (Flags × Evict × Evict × GoString) → List UInt16
  | _, [] => []
  | c, (f, ev1, ev2, s) :: calls =>
    (visualWidthCached f ev1 ev2 c s).1 :: widthsReturned (visualWidthCached f ev1 ev2 c s).2 calls

/-- Every width in the cache is the width of its text under one of the settings `F`. -/
def SoundFor (F : Flags → Prop) (c : Cache) : Prop := ∀ s w, c s = some w → ∃ f, F f ∧ w = visualWidth f s

end GoTable.Spec
