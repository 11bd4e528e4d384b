# Formal model of ilius/go-table — design

## Layout

    lean/Verif/Model/     the model: one definition per Go function, each citing /repo file and lines
    lean/Verif/Spec/      small specifications, independent of the model (UAX #29 rules, widths, layout, ...)
    lean/Verif/Proofs/    helper lemmas
    lean/Verif/Props/     the property theorems C01.. and, beside each, concrete cases that meet its hypotheses
    lean/Verif/Checks/    the repository's own tests, replayed on the model by the kernel
    tools/                generators for the table modules, properties.jsonl, MANIFEST.json and the axiom list
    seeded/LOG.jsonl      wrong programs tried against the theorems

A theorem named `Cnn_…` belongs to property Cnn. Theorems that show a limit (`…_not_…`, `…_inexact_…`,
`…_wraps_around`, …) state a concrete run of the model that breaks a stronger claim one might expect; they are
findings, not the property.

## How the code is modelled

* A Go `string` is `List UInt8`; strings need not be valid UTF-8. `utf8.DecodeRuneInString`, `[]rune(s)`
  and the rune steps of package regexp share one decoder.
* `int` is `Int`/`Nat` (no wrap; sizes are bounded by memory; `Model/Word.lean` has machine integers), `int32` runes are `Int` where a
  caller can pass any value and `Nat` after decoding, `uint16` is `UInt16` **with** wrap-around, because
  several findings are about it. Go's truncated division is `Int.tdiv`.
* Loops are recursive functions with a termination proof. The one loop that can run for ever
  (compactCalcH) takes fuel; "never ends" means "no amount of fuel is enough".
* Panics, errors and writer failures are values.
* Go maps are functions with Go's zero default; iteration over a map is iteration over an arbitrary
  permutation of its entries. Nil maps and nil columns are in a second model of the same functions
  (`Model/Literal.lean`), proved to agree with the first where nothing is nil (C62).
* Pointers whose sharing is observable (specs shared by tables, the slice AlignFormattedItem overwrites)
  are indices into an explicit store.
* Getters, alignment functions and writers are user code: arbitrary functions. Getters may fail and may
  change a user state.
* The list of items handed to a merge is a fixed list in `Model/Merge.lean`. In `Model/Talk.lean` it is user code
  that may answer every `Len` and `Get` differently: the merges are conversations, and the answers are
  unconstrained. C79 proves that both models agree on lists that do not change.
* Getters and alignments cannot reach the table in `Model/Table.lean`. In `Model/Reenter.lean` they can: tables,
  specs, width maps, arrays of columns and columns are objects in memory, and each call of user code hands them over
  and gets them back changed in any way the exported fields and assignments of whole tables allow. C82 proves that
  both models agree for getters that leave the table alone. In the same way `Model/Live.lean` has the merges with
  lists, writers and alignments that can reach the table; C87 proves that it agrees with `Model/Talk.lean` if they
  leave the table alone. User code may also change the width settings, and the cache may forget widths: what a text
  measured before the next call of user code is found to have as its width is one of the things each call may change
  (`Objects.answer`). C97 says what is left if only some settings are in use.
* Package regexp is modelled by a small backtracking matcher with leftmost-first priority, run on the
  actual expressions `ansiEscapeRE`, `reLoc` and the one in gen_properties.go.
* The LRU cache (a dependency whose source is not in the repository) is an adversarial cache: a Get may
  miss at any time, and a hit returns the value last Set for the key. Every exported function exists twice:
  with widths computed from scratch, and as a program that asks the cache (`Model/Cached.lean`); C69 proves
  that callers cannot tell them apart, C70 the same for goroutines.
* Goroutines on one table: `Model/SharedTable.lean` has the functions of table.go and the merges as programs that read
  and write single entries of the recorded widths, interleaved in any way. A data race is a state in which two of them
  are about to use the map and one is about to write. C109 proves that alone they do what the other models do.

## Properties: what is modelled, how it is proved

| id | property | modelled | proved by | theorems (without the prefix) |
|----|----------|----------|-----------|----------|
@@ROWS@@

All claims are proved in full for the model; none is partial. C12 and C70 rest on an assumption about code
outside the repository, stated below.

## Trusted base

* **Lean 4.33.0's kernel**, and Mathlib as far as imported (its theorems are checked by the same kernel).
  There is no `sorry`, `admit`, `native_decide`, `bv_decide`, no axiom of our own and no `unsafe` or
  `implemented_by`. `decide +kernel` evaluates inside the kernel.
* **The reading of the Go code**: that each definition in `Model/` does what the cited lines do. Checked by eye,
  by replaying the repository's tests in the kernel (`Checks/RepoTests.lean`: table_test.go,
  runewidth_test.go, runewidth_posix_test.go), by recomputing with `tools/checksums.py` all SHA-256
  sums of the width tables in runewidth_test.go, and by comparing the model on some 15000 random inputs with a
  second reading of the Go text, in Python (`tools/differential/`; no difference found).
* **The tables**: `tools/gen_tables.py` copies the tables of /repo into `Model/Tables/*.lean`.
* **Contracts of the standard library** (source not in the repository): `utf8.DecodeRuneInString`, `strings`
  (`Join`, `Repeat`, `ToLower` on ASCII, `Split`, `TrimSpace`, `Contains`, `SplitN`, `LastIndexByte`), `regexp`
  (leftmost-first matching), `sort.Slice` (some permutation in order), `fmt.Sscanf` for four formats and
  `fmt.Fprintf` of hexadecimal numbers, `io.Writer` (a call succeeds or fails), `bufio.Scanner` (lines, and where it
  gives up).
* **The cache** (github.com/ilius/go-lru, not in the repository): `Get` returns what was last `Set` or nothing. For
  C12 and C70: single calls are atomic. If the cache is not synchronised, concurrent use is a data race in Go and
  nothing is guaranteed; the repository takes no lock around it (width.go:31,35).

### Axioms each theorem depends on

Output of `tools/axioms.py` (`#print axioms`):

@@AXIOMS@@

## What is modelled and what is not

Modelled, function by function:

* alignment.go, horizontal.go, vertical.go, width.go, table.go, table_iface.go: everything. `TimeFormat` of
  `TableSpec` is never read by the repository and left out.
* runewidth/runewidth.go: everything, including histories of a `Condition` and of the package's default.
* runewidth_posix.go, runewidth_windows.go, runewidth_js.go, runewidth_appengine.go: the locale logic. `os.Getenv` is
  a function from names to values; the Windows call that reads the code page is a parameter.
* runewidth/uniseg: grapheme.go, graphemerules.go, properties.go, step.go, width.go and all tables.
* runewidth/script/generate.go and runewidth/uniseg/gen_properties.go: reading downloads byte by byte, sorting, compaction, printing,
  the command line and its outcomes.

Not modelled:

* Network access, gofmt and writing files in the two generators. (gofmt would refuse comments with NUL bytes, invalid
  UTF-8 or a byte order mark; no data file has them.)
* Unsynchronised concurrent use of one table (a data race on its width map).
* Memory exhaustion (including `make` with a capacity that is too large), running time. Go's `int` is unbounded except in
  `Model/Word.lean`, where C92 shows that the merges do not overflow 32 or 64 bits.

## Findings

Surprises found while proving; each has a theorem or an example in `Props/`.

Widths:

* `U+009B` starts an escape sequence for the regexp but has width 0 itself while one column is kept for it: the
  visual width of `"\u009b0m"` is 65535 (`C15_underflow_with_9b`); the exact formula is `C52_exact`.
* An extending character right after an escape sequence loses its width (`C52_lost_after_escape`); removing the
  sequences first can give a smaller result (`C53_stripped_narrower`).
* Control sequences with a parameter of five digits or more, OSC 8 hyperlinks, and final letters outside
  `[0-9A-ORZcf-nqry=><]` are not recognised and count as visible text.
* A width cached under earlier settings is used after the settings change (`C11_stale_after_settings_change`; exactly
  when: `C71_kept`).
* Aligned texts miss the width when the text ends in a Prepend character (left, centre) or starts with an extending one
  (right, centre): `C16_inexact_after_prepend`, `C17_inexact_before_extending`; a second alignment then pads again
  (`C19_not_idempotent_after_prepend`).
* Appending can make the visual width smaller (`C55_visualWidth_shrinks`: the appended text completes an escape
  sequence). Cutting inside a character can make it larger (`C55_cut_inside_character`, `C48_fails_inside_character`).
* In East Asian mode an invalid byte measures 2, more than its length (example beside C09).
* uniseg/width.go documents East Asian Wide as decisive before Extended_Pictographic; the code asks in the other order,
  so 12 code points documented with width 2 measure 1 (`C46_documentation_differs`).
* Flags, emoji with a variation selector and keycaps count one cell, where StepString of the same repository reports two
  (`C101_narrower_than_cluster`).
* The package-level `CreateLUT` does not refresh a table, though the method says to call `CreateLUT` again after changing
  settings (`C102_package_never_refreshes`). Copies of a condition share its table, so that refreshing one changes the
  widths of the others (`C102_refresh`).
* The runewidth tables are from Unicode 13, the uniseg tables from Unicode 14: 54 wide characters, 37 of them emoji, are
  measured as one cell (`C103_new`).
* Most combining marks of Hebrew, Arabic, Indic and other scripts are not in the runewidth table of combining characters
  and count one cell when they stand alone, skin tones and tone marks even two (`C104_one_character`).
* With the East Asian flag é counts two cells as one code point and one cell as e with a combining accent; for accented
  Greek and Cyrillic letters it is the reverse (`C106_flag`).
* `prAny = iota` is 1, not 0 as its comment says; behaviour is still right.

Tables:

* `FormatHeader` compares the number of bytes of a title with the column width, so a title that would fit can be
  replaced by the short one; a column of width 0 shows its whole title and breaks the layout
  (`C59_not_without_width`).
* `AlignFormattedItem` leaves cells of a column with nil alignment alone while the merges align them left
  (`C58_not_when_aligning`).
* Aligning rows before a compact merge changes its result (`C57_not_with_compaction`).
* An error in `FormatItem` leaves the widths of the columns before it updated (`C21_formatItem`).
* A getter that adds a column while `FormatItem` is at work does not lengthen the row, and `AlignFormattedItem` then turns
  the row down (examples beside C80 and C84). One that removes columns does not shorten it (C83).
* A copy of a `Table` shares its widths with the original (C96). A getter that overwrites the table it is called from
  with a new one makes `FormatItem` record the widths where nobody sees them (`C96_overwritten`).
* A getter that changes the width settings can leave cells formatted before it wider than their column
  (`C97_uncovered`).
* `AddColumn(nil)` and `AddColumn` on a zero `TableSpec` panic after the column has been appended (C61). A literal
  `&Table{TableSpec: spec}` panics as soon as a width other than 0 is to be recorded (C62).

Merges:

* A table without columns makes a merge divide by zero (`C38_no_columns`); so does an empty separator with all widths
  zero.
* `MergeRowsHorizontal` with compaction never returns if the width argument is -1 or at least 65535
  (`C37_never_widest`), or for one column with an empty separator when everything fits (`C37_never_narrow`). The
  exact condition is `C37_exact`.
* Negative width arguments are taken modulo 2^16 (`C40_clamp`); with the widest argument the sum of width and margin
  wraps around and one group per line is printed.
* With an empty separator the width computed for a group is less than what is printed, so lines can exceed the width
  (`C32_too_wide_without_separator`). Sums of compact widths wrap around at 65536 (`C33_wraps_around`).
* An empty item list prints nothing with one group per line and a blank line otherwise (`C30_empty`, `C31_empty`).
* The vertical search gives up at the first number of groups that leaves a column empty although a larger number may
  fit (`C35_vertical`, `C36_groups`).
* `Len` is trusted: a list that claims a negative length makes the vertical compact search divide by zero (examples
  beside C77) and the printing write a blank line or none; a list that grows with every question keeps the vertical
  search going, which otherwise always ends. Subtracting 1 from the smallest length wraps around, and blank lines are
  written for hundreds of years (`C92_smallest_length`).
* A column that is added while a merge is printing makes it panic with an index out of range in the middle of the
  listing, after calling the alignment of that column. One that is removed leaves empty cells without their width, so
  that the lines are no longer flush (examples beside C85).

Generators:

* script/generate.go skips every line with a space before the semicolon, as newer versions of EastAsianWidth.txt
  have, and would silently print empty tables (`C65_skipped`). Without the marker line the emoji table is empty
  (`C67_no_marker`); emoji ranges ending below U+00FF are dropped.
* script/generate.go looks neither at the HTTP status nor at the errors of its readers: a broken download gives shorter
  tables (`C94_widths_cut`), an error page six empty ones (example beside C94), which make every lookup panic, and a
  failure before the marker a source without `emoji`, which does not compile (`C94_emoji_missing`).
* script/generate.go accepts negative code points and prints them as `0x-005`; only gofmt stops it (C99). Runes wrap
  around when it compares the end of a range with the start of the next (`C99_hidden`).
* gen_properties.go: with a code point in both data files the table depends on an unstable sort
  (`C64_not_if_listed_twice`); the header always names emoji-data.txt (`C74_header_names_unused_file`); a table name
  with a line end becomes code (`C74_name_on_two_lines`); `gencat` panics on comments of less than three bytes
  (`C75_outcomes`), and its output would not compile in this package, which has no constants for general categories.

## Tests of the theorems against wrong programs

`seeded/LOG.jsonl` has one line per wrong program. Each was made by editing one definition of `Model/` in a scratch
copy. Up to two things were then done:

* *Rebuilding*, for the lines with `rebuilt: true`: `theorems_failed` then lists the theorems whose proofs no longer
  check, with the theorems as they stood at that time. This over-reports: a proof can break because a helper lemma did,
  though the statement is still true. Lines with `rebuilt: false` were only refuted, and `theorems_failed` repeats
  `refuted`.
* *Refuting*: in a copy of the edited model in which all theorems are assumed, `False` is derived from an instance of
  the theorem. `refuted` lists the theorems whose **statement** is false of the wrong program. The same derivation is
  checked to fail with the original model. Where an instance needs a fact of the specification alone (say, where the
  UAX #29 boundaries of a text are), that fact is first proved with the original model.

Every wrong program that breaks a claim makes a theorem of that claim fail, if need be after the tightening named in
`theorems_tightened`. Refuting was done for the earlier part of the log; lines with an empty `refuted` were only rebuilt,
so for them read `theorems_failed` with the reservation above. Entries with `equivalent: true` are controls: edits that
do not change what the program does; the theorems must remain true of them.

Lines named `sweep-…` are edits made by a script: in a definition chosen at random a number, a comparison, a condition or
an arithmetic operator is changed. Their builds were stopped at the first failure, so `theorems_failed` names only the
first theorem or lemma that failed, and `claim` is given only where that is a claim. Those that survived were looked at
one by one: either the edit changes nothing (`why` says why) or a theorem was tightened.

`theorems_tightened` names a theorem only where the wrong program was not caught by the theorem as it then stood.
Further statements were tightened after reading them with such programs in mind, before any was run against them: C16,
C17, C18 and C28 (number of spaces), C33 to C36 and C60 (number of columns), C74 and C75 (command line).
