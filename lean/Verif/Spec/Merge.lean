import Verif.Model.Merge
import Verif.Spec.Edges
/-!
# Specification: merged listings

What the lines of a merged listing are, in terms of the rows, a number of groups and a width for each
column of each group. From the model it takes only the shapes of tables and rows, and the alignment
functions themselves.
-/

namespace GoTable.Spec

variable {σ ι ν ε : Type}

/-- The alignment in force for a column: left unless one is set. -/
def alignOf (f : Flags) (col : Column σ ι ν ε) : Alignment := col.alignment.getD (alignmentLeft f)

/-- One item: its cells, aligned to the widths `w`, joined by single spaces. -/
def itemText (f : Flags) (cols : List (Column σ ι ν ε)) (w : Nat → UInt16) (row : List GoString) :
    GoString :=
  List.intercalate [0x20] ((cols.zip row).mapIdx fun c p => alignOf f p.1 p.2 (w c))

/-- The items on line `i` of a listing of `n` items read row by row, `g` to a line. -/
def onLineH (n g i : Nat) : List Nat := ((List.range g).map fun j => i * g + j).filter (· < n)

/-- The items on line `i` of a listing of `n` items read column by column, in `g` columns of `lines`
items each. -/
def onLineV (n g lines i : Nat) : List Nat := ((List.range g).map fun j => j * lines + i).filter (· < n)

/-- A line: its items joined by the separator; a line with fewer than `g` items ends in a separator. -/
def lineText (f : Flags) (cols : List (Column σ ι ν ε)) (w : Nat → Nat → UInt16) (sep : GoString)
    (rows : Nat → List GoString) (g : Nat) (shown : List Nat) : GoString :=
  List.intercalate sep ((shown.mapIdx fun j k => itemText f cols (w j) (rows k)) ++
    if shown.length < g then [[]] else [])

/-- How many lines `n` items need, `g` to a line. -/
def linesFor (n g : Nat) : Nat := (n + g - 1) / g

/-- The lines of a listing row by row, each with its newline. -/
def listingH (f : Flags) (cols : List (Column σ ι ν ε)) (w : Nat → Nat → UInt16) (sep : GoString)
    (rows : Nat → List GoString) (n g : Nat) : List GoString :=
  (List.range (linesFor n g)).map fun i => lineText f cols w sep rows g (onLineH n g i) ++ [0x0A]

/-- The lines of a listing column by column, each with its newline. -/
def listingV (f : Flags) (cols : List (Column σ ι ν ε)) (w : Nat → Nat → UInt16) (sep : GoString)
    (rows : Nat → List GoString) (n g : Nat) : List GoString :=
  (List.range (linesFor n g)).map fun i =>
    lineText f cols w sep rows g (onLineV n g (linesFor n g) i) ++ [0x0A]

/-- The width argument as it is used: cut off at 65535, then taken modulo 2^16. -/
def clamped (arg : Int) : Nat := (min arg 65535 % 65536).toNat

/-- What one item takes in the estimate of the group count: its columns' recorded widths, and one
separator for each column. -/
def pitch (t : Table σ ι ν ε) (sepLen : Nat) : Nat :=
  (t.columns.map fun c => (t.columnWidth c.name).toNat).sum + t.columns.length * sepLen

/-- The number of groups without compaction, in arithmetic modulo 2^16: at least one. -/
def plainGroups (maxWidth sepLen pitch : Nat) : Nat :=
  max 1 ((maxWidth + sepLen) % 65536 / (pitch % 65536))

/-- Widths `w` are the widest cells of each group, when item `k` is in group `groupOf k`. -/
def WidestCells (vw : GoString → UInt16) (rows : Nat → List GoString) (n cols g : Nat)
    (groupOf : Nat → Nat) (w : Nat → Nat → UInt16) : Prop :=
  ∀ j c, j < g → c < cols →
    (∀ k x, k < n → groupOf k = j → (rows k)[c]? = some x → vw x ≤ w j c) ∧
    (w j c = 0 ∨ ∃ k x, k < n ∧ groupOf k = j ∧ (rows k)[c]? = some x ∧ vw x = w j c)

/-- The width of a full line with groups `0 .. g-1`: the cells, one space between cells, a separator
between groups. -/
def fullWidth (cols sepLen g : Nat) (w : Nat → Nat → UInt16) : Nat :=
  ((List.range g).map fun j => ((List.range cols).map fun c => (w j c).toNat).sum + (cols - 1)).sum +
    (g - 1) * sepLen

/-- With the widest cells of each of `g` groups the line fits, in arithmetic modulo 2^16. -/
def Fits (vw : GoString → UInt16) (rows : Nat → List GoString) (n cols sepLen maxWidth : Nat)
    (groupOf : Nat → Nat → Nat) (g : Nat) : Prop :=
  ∃ w, WidestCells vw rows n cols g (groupOf g) w ∧ fullWidth cols sepLen g w % 65536 ≤ maxWidth

/-- The number of groups `g` and the widths `w` a merge settles on. `groupOf g k` is the group of item
`k` among `g` groups; `usable g` tells whether `g` groups are to be considered at all.

Without `compact` it is the plain number of groups. With it, it is the first one, counting up from
there, such that the next one is not usable or does not fit. The widths are the recorded ones if the
number is the plain one, else the widest cells of each group. -/
structure Chosen (f : Flags) (t : Table σ ι ν ε) (items : Items) (arg : Int) (sepLen : Nat)
    (compact : Bool) (groupOf : Nat → Nat → Nat) (usable : Nat → Prop)
    (g : Nat) (w : Nat → Nat → UInt16) : Prop where
  atLeast : plainGroups (clamped arg) sepLen (pitch t sepLen) ≤ g
  plain : compact = false → g = plainGroups (clamped arg) sepLen (pitch t sepLen)
  recorded : g = plainGroups (clamped arg) sepLen (pitch t sepLen) →
    ∀ j c col, t.columns[c]? = some col → w j c = t.columnWidth col.name
  widest : plainGroups (clamped arg) sepLen (pitch t sepLen) < g →
    WidestCells (visualWidth f) (fun k => items.get k) items.len t.columns.length g (groupOf g) w
  fits : ∀ G, plainGroups (clamped arg) sepLen (pitch t sepLen) < G → G ≤ g →
    usable G ∧ Fits (visualWidth f) (fun k => items.get k) items.len t.columns.length sepLen (clamped arg) groupOf G
  stop : compact = true →
    ¬ (usable (g + 1) ∧
      Fits (visualWidth f) (fun k => items.get k) items.len t.columns.length sepLen (clamped arg) groupOf (g + 1))

/-- Group of item `k` among `g`, row by row. -/
def groupH (g k : Nat) : Nat := k % g

/-- Group of item `k` out of `n` among `g`, column by column. -/
def groupV (n g k : Nat) : Nat := k / linesFor n g

/-- Column by column, `g` groups leave none of them empty. -/
def usableV (n g : Nat) : Prop := (g - 1) * linesFor n g < n

/-- Cells are there for every column in every row. -/
def FullRows (t : Table σ ι ν ε) (items : Items) : Prop :=
  ∀ k : Nat, k < items.len → t.columns.length ≤ (items.get k).length

/-- What a merge looks at in a table, column by column: the alignment in force and the recorded width. -/
def columnView (f : Flags) (t : Table σ ι ν ε) : List (Alignment × UInt16) :=
  t.columns.map fun c => (alignOf f c, t.columnWidth c.name)

/-- Where the cell of column `c` in group `j` starts: after `j` whole groups with a separator each, and `c`
cells with a space each. -/
def offset (cols sepLen : Nat) (w : Nat → Nat → UInt16) (j c : Nat) : Nat :=
  ((List.range j).map fun j' => ((List.range cols).map fun c' => (w j' c').toNat).sum + (cols - 1) + sepLen).sum +
    ((List.range c).map fun c' => (w j c').toNat + 1).sum

/-- Text whose measured width is exact and that joins neither neighbour. -/
structure Settled (f : Flags) (s : GoString) : Prop where
  no9b : 0x9B ∉ runes s
  small : stringWidth f s < 65536
  start : ¬ StartsExtending s
  finish : ¬ EndsInPrepend s

instance (f : Flags) (s : GoString) : Decidable (Settled f s) :=
  decidable_of_iff (0x9B ∉ runes s ∧ stringWidth f s < 65536 ∧ ¬ StartsExtending s ∧ ¬ EndsInPrepend s)
    ⟨fun h => ⟨h.1, h.2.1, h.2.2.1, h.2.2.2⟩, fun h => ⟨h.no9b, h.small, h.start, h.finish⟩⟩

/-- One of the library's alignments. -/
def BuiltIn (f : Flags) (al : Alignment) : Prop :=
  al = alignmentLeft f ∨ al = alignmentRight f ∨ al = alignmentCenter f

/-- The characters that may follow the introducer in an escape sequence. -/
def escapeChars : GoString := lit "[()#;?0123456789ABCDEFGHIJKLMNORZcfghijklmnqry=><"

/-- The text has no introducer of an escape sequence. -/
def NoIntroducer (s : GoString) : Prop := ∀ r ∈ runes s, r ≠ 0x1B ∧ r ≠ 0x9B

/-- A separator of known width: not empty, printable ASCII; and either it cannot continue an escape sequence
or no cell begins one. -/
structure PlainSep (items : Items) (sep : GoString) : Prop where
  nonempty : sep ≠ []
  ascii : ∀ b ∈ sep, 0x20 ≤ b.toNat ∧ b.toNat ≤ 0x7E
  apart : (∀ b, sep.head? = some b → b ∉ escapeChars) ∨
    ∀ k : Nat, k < items.len → ∀ x ∈ items.get k, NoIntroducer x

/-- Every column uses a built-in alignment, and every cell is settled. -/
structure Tidy (f : Flags) (t : Table σ ι ν ε) (items : Items) : Prop where
  builtIn : ∀ col ∈ t.columns, BuiltIn f (alignOf f col)
  settled : ∀ k : Nat, k < items.len → ∀ x ∈ items.get k, Settled f x

/-- The recorded widths are at least as wide as every cell, as after formatting the items. -/
def Covered (f : Flags) (t : Table σ ι ν ε) (items : Items) : Prop :=
  ∀ k : Nat, k < items.len → ∀ (c : Nat) (col : Column σ ι ν ε) (x : GoString),
    t.columns[c]? = some col → (items.get k)[c]? = some x → visualWidth f x ≤ t.columnWidth col.name

end GoTable.Spec
