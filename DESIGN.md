# Formal model of ilius/go-table — design

## Layout

    lean/Verif/Model/     the model: one definition per Go function, each citing /repo file and lines
    lean/Verif/Spec/      small specifications, independent of the model (UAX #29 rules, widths, layout, ...)
    lean/Verif/Proofs/    helper lemmas
    lean/Verif/Props/     the property theorems C01.. and, beside each, concrete cases that meet its hypotheses
    lean/Verif/Checks/    the repository's own tests, replayed on the model by the kernel
    tools/                generators for the table modules, properties.jsonl, MANIFEST.json and the axiom list
    seeded/LOG.jsonl      wrong programs tried against the theorems

A theorem named `Cnn_…` belongs to property Cnn. Theorems that show a limit (`…_not_…`, `…_inexact_…`,
`…_wraps_around`, …) state a concrete run of the model that breaks a stronger claim one might expect; they are
findings, not the property.

## How the code is modelled

* A Go `string` is `List UInt8`; strings need not be valid UTF-8. `utf8.DecodeRuneInString`, `[]rune(s)`
  and the rune steps of package regexp share one decoder.
* `int` is `Int`/`Nat` (no wrap; sizes are bounded by memory; `Model/Word.lean` has machine integers), `int32` runes are `Int` where a
  caller can pass any value and `Nat` after decoding, `uint16` is `UInt16` **with** wrap-around, because
  several findings are about it. Go's truncated division is `Int.tdiv`.
* Loops are recursive functions with a termination proof. The one loop that can run for ever
  (compactCalcH) takes fuel; "never ends" means "no amount of fuel is enough".
* Panics, errors and writer failures are values.
* Go maps are functions with Go's zero default; iteration over a map is iteration over an arbitrary
  permutation of its entries. Nil maps and nil columns are in a second model of the same functions
  (`Model/Literal.lean`), proved to agree with the first where nothing is nil (C62).
* Pointers whose sharing is observable (specs shared by tables, the slice AlignFormattedItem overwrites)
  are indices into an explicit store.
* Getters, alignment functions and writers are user code: arbitrary functions. Getters may fail and may
  change a user state.
* The list of items handed to a merge is a fixed list in `Model/Merge.lean`. In `Model/Talk.lean` it is user code
  that may answer every `Len` and `Get` differently: the merges are conversations, and the answers are
  unconstrained. C79 proves that both models agree on lists that do not change.
* Getters and alignments cannot reach the table in `Model/Table.lean`. In `Model/Reenter.lean` they can: tables,
  specs, width maps, arrays of columns and columns are objects in memory, and each call of user code hands them over
  and gets them back changed in any way the exported fields and assignments of whole tables allow. C82 proves that
  both models agree for getters that leave the table alone. In the same way `Model/Live.lean` has the merges with
  lists, writers and alignments that can reach the table; C87 proves that it agrees with `Model/Talk.lean` if they
  leave the table alone. User code may also change the width settings, and the cache may forget widths: what a text
  measured before the next call of user code is found to have as its width is one of the things each call may change
  (`Objects.answer`). C97 says what is left if only some settings are in use.
* Package regexp is modelled by a small backtracking matcher with leftmost-first priority, run on the
  actual expressions `ansiEscapeRE`, `reLoc` and the one in gen_properties.go.
* The LRU cache (a dependency whose source is not in the repository) is an adversarial cache: a Get may
  miss at any time, and a hit returns the value last Set for the key. Every exported function exists twice:
  with widths computed from scratch, and as a program that asks the cache (`Model/Cached.lean`); C69 proves
  that callers cannot tell them apart, C70 the same for goroutines.
* Goroutines on one table: `Model/SharedTable.lean` has the functions of table.go and the merges as programs that read
  and write single entries of the recorded widths, interleaved in any way. A data race is a state in which two of them
  are about to use the map and one is about to write. C109 proves that alone they do what the other models do.

## Properties: what is modelled, how it is proved

| id | property | modelled | proved by | theorems (without the prefix) |
|----|----------|----------|-----------|----------|
| C01 | Grapheme boundaries follow UAX #29 | StepString, Graphemes, transition table, property search | invariant "parser state = function of the prefix read", refined to the rules of UAX #29 written as a specification | `boundaries_follow_UAX29` |
| C02 | Grapheme iteration is lossless and finishes | Graphemes iterator | induction on what remains of the text | `iteration_lossless_and_finite` |
| C03 | StepString can be resumed through its packed state | StepString, packed state | bit lemma for the packing; refinement to rune-level segmentation | `stepString_resumable`, `stepString_empty`, `stepString_cluster` |
| C04 | Table lookups equal interval membership | inTable, inTables, propertySearch, all tables | loop invariant of binary search for every sorted table; that the shipped tables are sorted is evaluated by the kernel over the whole tables | `inTable_iff_member`, `property_iff_member` |
| C05 | RuneWidth is total and matches its table definition | RuneWidth | C04, plus disjointness of intervals | `runeWidth_definition` |
| C06 | The lookup table changes nothing but speed | CreateLUT, RuneWidth with table | nibble arithmetic; invariant over histories of a Condition | `lut_transparent` |
| C07 | The default condition stays coherent | handleEnv, package CreateLUT, DefaultCondition | invariant over histories | `default_condition_coherent`, `frozen` |
| C08 | East Asian and emoji flags only ever widen | RuneWidth, StringWidth | C05, disjointness, lifted through clusters | `east_asian_only_widens`, `emoji_only_widens` |
| C09 | StringWidth is bounded by byte length and cluster count | StringWidth | sizes of decoded runes, lower bounds of the wide tables | `stringWidth_bounds` |
| C10 | Printable ASCII is measured by length | StringWidth | segmentation lemmas for ASCII | `ascii_width`, `ascii_width_alone` |
| C11 | The width cache is invisible | visualWidth with cache | invariant "every entry is a true width" over histories with adversarial eviction | `cache_invisible`, `stale_after_settings_change` |
| C12 | The width cache is invisible under concurrency | visualWidth, two atomic steps per goroutine | the same invariant over all interleavings | `cache_invisible_concurrently` |
| C13 | Text without escape introducers is measured as it is | ansiEscapeRE, countMatchesLength, visualWidth | lemmas on the regexp matcher | `no_introducer` |
| C14 | SGR colour sequences are invisible | ansiEscapeRE, visualWidth | matcher lemmas; each matched byte after the introducer is a cluster of width 1 | `sgr_invisible`, `control_sequence_invisible` |
| C15 | Width subtraction does not underflow | countMatchesLength, visualWidth | as C14, for any text | `no_underflow`, `underflow_with_9b` |
| C16 | AlignmentLeft pads to exactly the width | AlignmentLeft | additivity of the width under spaces | `alignmentLeft_exact`, `inexact_after_prepend` |
| C17 | AlignmentRight pads to exactly the width | AlignmentRight | as C16 | `alignmentRight_exact`, `inexact_before_extending` |
| C18 | AlignmentCenter pads to exactly the width and is balanced | AlignmentCenter | as C16 | `alignmentCenter_exact` |
| C19 | Alignment is idempotent and never truncates | all alignments | C16-C18 | `no_truncation`, `idempotent`, `not_idempotent_after_prepend` |
| C20 | Column width is the maximum ever seen | FormatItem, UpdateWidth, store of specs and tables | invariant over logs of calls | `width_is_maximum`, `width_monotone` |
| C21 | FormatItem returns one formatted cell per column or the first error | FormatItem | induction over columns | `formatItem`, `upToError` |
| C22 | UpdateWidth does not depend on map order | UpdateWidth over every order of a map | induction; maximum is commutative | `updateWidth_is_maximum`, `updateWidth_order` |
| C23 | Tables share columns through the spec but not widths | NewTable, AddColumn, store of specs and tables | invariant over logs of calls | `sharing`, `isolation` |
| C24 | Column registry reflects the additions | AddColumn, ColumnByName | invariant over logs of calls | `registry` |
| C25 | FormatItemBasic joins or returns the first error | FormatItemBasic | induction over columns | `formatItemBasic` |
| C26 | AlignFormattedItem checks arity and writes in place | AlignFormattedItem on a slice in memory | induction over columns | `align_in_place` |
| C27 | Format then align gives equal-width columns | FormatItem + AlignFormattedItem | C16-C20 | `equal_widths` |
| C28 | Headers line up with their columns | padColumnHeader, FormatHeader | C09, C18 | `header` |
| C29 | TableWidth is the sum of widths and margins | TableWidth | arithmetic modulo 2^16 | `tableWidth` |
| C30 | MergeRowsHorizontal prints every item once, row by row | MergeRowsHorizontal | index arithmetic; lines and groups | `horizontal`, `each_once`, `empty` |
| C31 | MergeRowsVertical prints every item once, column by column | MergeRowsVertical | index arithmetic | `vertical`, `each_once`, `empty` |
| C32 | Non-compact lines fit the requested width | both merges without compaction | additivity of widths, arithmetic modulo 2^16 | `horizontal`, `vertical`, `too_wide_without_separator` |
| C33 | Compact lines fit the requested width | both merges with compaction | as C32 | `horizontal`, `vertical`, `wraps_around` |
| C34 | Merged columns line up across lines | both merges | as C32, for every prefix of a line | `horizontal`, `vertical` |
| C35 | Compact search stops at the first group count that does not fit | compactCalcH, compactCalcV | invariant of the search | `horizontal`, `vertical` |
| C36 | Vertical merge always terminates | compactCalcV | termination measure | `groups` |
| C37 | Horizontal compact merge: when it terminates | compactCalcH with fuel | "never ends" is "no amount of fuel is enough", by induction on fuel | `ends`, `never_widest`, `never_narrow`, `exact` |
| C38 | When a merge can panic | both merges with panics | case analysis on every index and division | `horizontal`, `vertical`, `no_columns` |
| C39 | A failing writer stops the merge at that line | both merges with a failing writer | induction over lines | `horizontal`, `vertical` |
| C40 | Width argument: clamping and monotonicity | conversion of the width argument | modular arithmetic, monotonicity of division | `clamp`, `monotone_horizontal`, `monotone_vertical` |
| C41 | Locale detection | isEastAsian, reLoc | matcher lemmas; strings.ToLower is a parameter that is ASCII lower-casing on ASCII | `locale_detection` |
| C42 | Locale detection never panics | isEastAsian, mblenTable | case analysis | `never_panics` |
| C43 | RUNEWIDTH_EASTASIAN overrides the locale | IsEastAsian, handleEnv | case analysis | `override`, `platforms` |
| C44 | Range compaction preserves membership | generate.go shapeup | induction; canonical form | `compaction`, `canonical`, `shipped_tables` |
| C45 | Hangul syllables are classed by arithmetic | graphemeCodePoints | kernel evaluation over the whole table plus a lemma on multiples of 28 | `hangul_classes` |
| C46 | StepString's cluster width | StepString, uniseg runeWidth | loop invariant of StepString | `stepString_width`, `cluster_cases`, `exceptions`, `documentation_differs` |
| C47 | Invalid UTF-8 is measured byte by byte | UTF-8 decoder | case analysis on encodings, induction | `decode_one`, `decode_all` |
| C48 | StringWidth is subadditive | StringWidth | simulation between two segmentations | `fails_inside_character`, `stringWidth_subadditive` |
| C49 | Merging leaves its inputs alone | both merges | both runs read the same things | `depends` |
| C50 | Windows and POSIX agree on code pages | runewidth_windows.go, runewidth_posix.go | evaluation of both on every code page | `code_pages_agree` |
| C51 | Escape sequences are found left to right, longest first | FindAllString on ansiEscapeRE | uniqueness of the cut into escapes and text | `escapes_left_out` |
| C52 | The visual width is the width of the visible text | visualWidth | segmentation across escapes | `visible_width`, `exact`, `visible_width_esc`, `lost_after_escape` |
| C53 | Stripping escape sequences | visualWidth against a stripped text | C52 | `stripped_not_wider`, `stripped_same`, `stripped_narrower` |
| C54 | Widths add up across control characters | StringWidth, visualWidth | control characters end every cluster | `stringWidth_across`, `visualWidth_across`, `lines`, `not_across_esc` |
| C55 | Appending never narrows | StringWidth | simulation as in C48 | `append_not_narrower`, `append_zero_width`, `visualWidth_shrinks`, `cut_inside_character` |
| C56 | Formatting items, then merging them | FormatItem then a merge | composition of C20, C21 and C30-C34 | `formatted_rows`, `format_then_merge` |
| C57 | Aligning rows before a merge | AlignFormattedItem then a merge | C19, C26, C30, C31 | `aligned_before_merge`, `not_with_compaction` |
| C58 | No alignment means left, when merging | nil alignments | case analysis | `nil_alignment`, `not_when_aligning` |
| C59 | The header lines up with the rows | FormatHeader and AlignFormattedItem | additivity of widths | `header_lines_up`, `not_without_width` |
| C60 | Horizontal and vertical merges have the same shape | both merges | C30, C31, C35 | `same_shape` |
| C61 | Adding columns to a spec made as a literal | AddColumn on literals with nil maps | case analysis | `addColumn`, `zero_spec` |
| C62 | Tables made as a literal | Table literals with nil maps | refinement to the ordinary table | `updateWidth`, `formatItem_agrees`, `formatItem_without_map`, `nil_column`, `tableWidth` |
| C63 | The property generator reads lines exactly | gen_properties.go parseProperty | matcher lemmas | `parse_line` |
| C64 | Generated property tables answer as the data files say | gen_properties.go parse, sorting; propertySearch | any permutation a sort may give; C04 | `trim`, `parse`, `table`, `compiles`, `constants`, `not_if_listed_twice` |
| C65 | The width generator reads lines exactly | generate.go eastasian, emoji; fmt.Sscanf | scanner lemmas | `width_line`, `skipped`, `emoji_line`, `width_exact`, `emoji_exact` |
| C66 | Generated width tables answer as the data file says | generate.go eastasian; inTable | C44, C65, C04 | `width_tables` |
| C67 | The generated emoji table answers as the data file says | generate.go emoji; inTable | C44, C65, C04 | `emoji_table`, `no_marker` |
| C68 | The printed table is the table | generate.go generate | printing and reading back | `number`, `source`, `unique` |
| C69 | No call of the package shows that widths are cached | every exported function as a program that asks for widths | simulation between cached and uncached runs | `programs`, `alignments`, `format_item`, `format_item_basic`, `align_item`, `header`, `horizontal`, `vertical`, `not_if_unsound` |
| C70 | Goroutines with their own tables do not disturb each other | goroutines running such programs | invariant over all interleavings | `goroutines` |
| C71 | How stale a width can be | visualWidth with changing settings | invariant over histories | `settings_of_a_call`, `never_stale`, `kept` |
| C72 | The description of merged output leaves no choice | both merges | uniqueness from the specification alone; C30, C31, C37, C38 | `unique`, `horizontal`, `vertical` |
| C73 | StringWidth adds up the widths of the user-perceived characters | StringWidth | uniqueness of the pieces; C01 | `pieces`, `stringWidth` |
| C74 | The generated property file declares exactly the table of the data | gen_properties.go parse, main | lexical analysis of the generated text | `source`, `name_on_two_lines`, `header_names_unused_file` |
| C75 | Flags and outcomes of the property generator | gen_properties.go main, flags | case analysis | `flags`, `sources`, `outcomes` |
| C76 | Which calls a merge makes without compaction | both merges as conversations with list and writer | inversion of conversations, induction over lines and groups; converse: what is described leaves only answers open | `horizontal`, `vertical` |
| C77 | Which calls a merge makes with compaction | both merges, search included, as conversations | choice of answers through nested loops; induction over rounds; converse as for C76 | `horizontal`, `vertical` |
| C78 | Merges never ask for an item out of range | both merges as conversations | from C76 and C77 | `in_range`, `zero` |
| C79 | With a list that does not change, only its contents matter | both merges as conversations and with fixed lists | simulation of one model by the other | `horizontal`, `vertical`, `exists` |
| C80 | What FormatItem does while getters change the table | FormatItem over objects in memory, as a conversation with its getters | induction on the columns left | `calls`, `row`, `ends` |
| C81 | Widths only grow, however calls are nested | the three methods that call user code, nested to any depth | mutual induction on the nesting | `grown`, `covered` |
| C82 | Getters that leave the table alone | FormatItem over objects in memory and on tables as values | simulation of one model by the other | `quiet`, `quiet_exists` |
| C83 | What FormatItemBasic does while getters change the table | FormatItemBasic over objects in memory | induction on the columns left | `basic` |
| C84 | What AlignFormattedItem does while alignments change the table | AlignFormattedItem over objects in memory | induction on the columns left | `align` |
| C85 | What merges do while list, writer and alignments change the table | both merges over objects in memory, with all user code they call | equality of model and relation, part by part; inductions on loops | `horizontal`, `vertical`, `ends` |
| C86 | Merges change nothing themselves | both merges over objects in memory | induction on the relation of C85 | `chained` |
| C87 | Merges with user code that leaves the table alone | both merges over objects in memory and as conversations | simulation of one model by the other | `horizontal`, `vertical`, `fixed_horizontal`, `fixed_vertical` |
| C88 | Trouble ends a merge at once | both merges over objects in memory | induction on the relation of C85 | `stops` |
| C89 | Merges do not crash by themselves while the columns stay | both merges over objects in memory | induction on the relation of C85 | `steady`, `range` |
| C90 | Every item exactly once, whatever user code does | both merges over objects in memory | induction on the relation of C85, C30, C31 | `horizontal`, `vertical` |
| C91 | Which merges are sure to end | both merges over objects in memory, the rounds of the search | induction on the rounds | `rounds`, `plain`, `vertical` |
| C92 | Merges do not overflow the integers of the machine | both merges with 32-bit and 64-bit integers | loop by loop: the same calls as with unbounded integers | `horizontal`, `vertical`, `fixed_horizontal`, `fixed_vertical`, `smallest_length` |
| C93 | From downloads to the runewidth tables | `generate.go` from the bytes of the files to the source | lines (LinesOf), then C66 and C67, then a Go scanner reads the source | `source`, `unique` |
| C94 | Broken downloads shorten the runewidth tables silently | `generate.go` with files that break off or have long lines | the scanner stops where the file is cut | `lines`, `not_fetched`, `widths_cut`, `emoji_cut`, `emoji_missing`, `always_tables` |
| C95 | Broken downloads stop the generator of the property tables | `gen_properties.go` from the bytes of the files | reading bytes = reading lines if intact; otherwise an error | `intact`, `trouble` |
| C96 | Copies of a table share their recorded widths | FormatItem over objects in memory, tables that share a width map | C80 and C81; induction on the columns left | `copy_covers`, `other_maps`, `overwritten` |
| C97 | User code that changes the width settings | the width cache; FormatItem and both merges over objects in memory | C71; simulation of one model by the other, for objects that differ in how texts are measured | `answers`, `ascii`, `characters`, `horizontal`, `vertical`, `format`, `covered`, `uncovered` |
| C98 | What compaction costs | both merges, search included, as conversations | C77, counting the items of each round; for the bound C37 and C79 | `horizontal`, `vertical`, `bound` |
| C99 | Negative numbers in the data of the width tables | `generate.go` with minus signs | compaction keeps a negative bound negative; a Go scanner stops at `0x-` | `not_go`, `width_refused`, `emoji_refused`, `accepted`, `hidden` |
| C100 | Plain text is measured character by character | `StringWidth` on text without joining characters | the pieces are single characters by the rules; ranges of scripts against the tables | `sum`, `cells`, `no_cell`, `aligned` |
| C101 | Accents, flags and emoji are counted by their first code point | `StringWidth` on marks, flags, joined emoji | no boundary inside such a character and one after each, by the rules, whatever precedes | `units`, `first`, `emoji`, `flags`, `narrower_than_cluster` |
| C102 | By which settings a condition measures | conditions and lookup tables as objects in memory | simulation: of a table only what it was filled for is kept | `in_force`, `package_never_refreshes`, `refresh`, `variables` |
| C103 | RuneWidth follows the East Asian widths of Unicode 14 but for 54 characters | the tables of packages runewidth and uniseg | tables as step functions, compared wherever one of them changes | `without_flag`, `with_flag`, `zero`, `new`, `census` |
| C104 | Where StringWidth and StepString differ on single characters | one character in `StringWidth` and in `StepString` | the same | `one_character`, `marks` |
| C105 | The widths of StepString, added up over a text, against StringWidth | a whole text in `StepString` and in `StringWidth` | induction over the calls; pieces are unique; the tables as in C104 | `walk`, `units`, `accents`, `plain`, `flags`, `emoji` |
| C106 | Composed and decomposed spelling give the same width without the East Asian flag | composed and decomposed spelling | a simulation between the states on both sides, eleven states and 13 kinds of decompositions checked; the 2061 decompositions and the arithmetic of Hangul | `clusters`, `width`, `no_joiner`, `same`, `flag_text`, `flag`, `number`, `contextual`, `visual` |
| C107 | Canonically equivalent texts have the same width | reordered combining characters, canonical equivalence | both orders lead to the same state from all eleven; 912 marks have two classes and, but for eight, at most one cell; C106 | `clusters`, `width`, `on_letters`, `wide`, `equivalent` |
| C108 | The layout of merged output depends only on how wide the cells are | lists of items with equally wide cells are related by SameWidths; both merges print one list of lines with places, filled in with either | the compact searches read widths only; alignments of the package turn a place into spaces, cell, spaces | `horizontal`, `vertical`, `built_in`, `equivalent`, `recoloured` |
| C109 | Which calls may run at the same time on one table | goroutines on one table: programs that read and write single entries of the width map, interleaved in any way | a goroutine that writes nothing alone sees no other widths; one that does can be run up to its first writing while another waits | `alone`, `readers`, `format_item`, `update_width`, `sequence`, `goroutines`, `race_iff`, `lost_update`, `lost_row` |
| C110 | From items to printed lines, everything but the texts depends only on how wide the cells are | two runs of FormatItem over copies of a table, from different items and getter states, with equally wide cells | the recorded widths are a fold over the widths of the cells, so the tables are equal; then C108 | `same_table`, `session` |

All claims are proved in full for the model; none is partial. C12 and C70 rest on an assumption about code
outside the repository, stated below.

## Trusted base

* **Lean 4.33.0's kernel**, and Mathlib as far as imported (its theorems are checked by the same kernel).
  There is no `sorry`, `admit`, `native_decide`, `bv_decide`, no axiom of our own and no `unsafe` or
  `implemented_by`. `decide +kernel` evaluates inside the kernel.
* **The reading of the Go code**: that each definition in `Model/` does what the cited lines do. Checked by eye,
  by replaying the repository's tests in the kernel (`Checks/RepoTests.lean`: table_test.go,
  runewidth_test.go, runewidth_posix_test.go), by recomputing with `tools/checksums.py` all SHA-256
  sums of the width tables in runewidth_test.go, and by comparing the model on some 15000 random inputs with a
  second reading of the Go text, in Python (`tools/differential/`; no difference found).
* **The tables**: `tools/gen_tables.py` copies the tables of /repo into `Model/Tables/*.lean`.
* **Contracts of the standard library** (source not in the repository): `utf8.DecodeRuneInString`, `strings`
  (`Join`, `Repeat`, `ToLower` on ASCII, `Split`, `TrimSpace`, `Contains`, `SplitN`, `LastIndexByte`), `regexp`
  (leftmost-first matching), `sort.Slice` (some permutation in order), `fmt.Sscanf` for four formats and
  `fmt.Fprintf` of hexadecimal numbers, `io.Writer` (a call succeeds or fails), `bufio.Scanner` (lines, and where it
  gives up).
* **The cache** (github.com/ilius/go-lru, not in the repository): `Get` returns what was last `Set` or nothing. For
  C12 and C70: single calls are atomic. If the cache is not synchronised, concurrent use is a data race in Go and
  nothing is guaranteed; the repository takes no lock around it (width.go:31,35).

### Axioms each theorem depends on

Output of `tools/axioms.py` (`#print axioms`):

* no axioms (2 theorems): `C106_number`, `C109_sequence`.
* `Classical.choice`, `Quot.sound`, `propext` (257 theorems): `C01_boundaries_follow_UAX29`, `C02_iteration_lossless_and_finite`, `C03_stepString_resumable`, `C03_stepString_empty`, `C03_stepString_cluster`, `C05_runeWidth_definition`, `C06_lut_transparent`, `C07_default_condition_coherent`, `C07_frozen`, `C08_east_asian_only_widens`, `C08_emoji_only_widens`, `C09_stringWidth_bounds`, `C10_ascii_width`, `C10_ascii_width_alone`, `C11_cache_invisible`, `C11_stale_after_settings_change`, `C12_cache_invisible_concurrently`, `C13_no_introducer`, `C14_sgr_invisible`, `C14_control_sequence_invisible`, `C15_no_underflow`, `C15_underflow_with_9b`, `C16_alignmentLeft_exact`, `C16_inexact_after_prepend`, `C17_alignmentRight_exact`, `C17_inexact_before_extending`, `C18_alignmentCenter_exact`, `C19_no_truncation`, `C19_idempotent`, `C19_not_idempotent_after_prepend`, `C20_width_is_maximum`, `C20_width_monotone`, `C21_formatItem`, `C23_sharing`, `C23_isolation`, `C26_align_in_place`, `C27_equal_widths`, `C28_header`, `C30_horizontal`, `C30_each_once`, `C30_empty`, `C31_vertical`, `C31_each_once`, `C31_empty`, `C32_horizontal`, `C32_vertical`, `C32_too_wide_without_separator`, `C33_horizontal`, `C33_vertical`, `C33_wraps_around`, `C34_horizontal`, `C34_vertical`, `C35_horizontal`, `C35_vertical`, `C36_groups`, `C37_ends`, `C37_never_widest`, `C37_never_narrow`, `C37_exact`, `C38_horizontal`, `C38_vertical`, `C38_no_columns`, `C39_horizontal`, `C39_vertical`, `C40_clamp`, `C40_monotone_horizontal`, `C40_monotone_vertical`, `C41_locale_detection`, `C42_never_panics`, `C43_override`, `C44_compaction`, `C44_canonical`, `C44_shipped_tables`, `C45_hangul_classes`, `C46_stepString_width`, `C46_documentation_differs`, `C47_decode_one`, `C47_decode_all`, `C48_fails_inside_character`, `C48_stringWidth_subadditive`, `C49_depends`, `C50_code_pages_agree`, `C51_escapes_left_out`, `C52_visible_width`, `C52_exact`, `C52_visible_width_esc`, `C52_lost_after_escape`, `C53_stripped_not_wider`, `C53_stripped_same`, `C53_stripped_narrower`, `C54_stringWidth_across`, `C54_visualWidth_across`, `C54_lines`, `C54_not_across_esc`, `C55_append_not_narrower`, `C55_append_zero_width`, `C55_visualWidth_shrinks`, `C55_cut_inside_character`, `C56_formatted_rows`, `C56_format_then_merge`, `C57_aligned_before_merge`, `C57_not_with_compaction`, `C58_nil_alignment`, `C58_not_when_aligning`, `C59_header_lines_up`, `C59_not_without_width`, `C60_same_shape`, `C62_formatItem_agrees`, `C62_formatItem_without_map`, `C62_nil_column`, `C63_parse_line`, `C64_parse`, `C64_table`, `C64_compiles`, `C65_width_line`, `C65_skipped`, `C65_emoji_line`, `C65_width_exact`, `C65_emoji_exact`, `C66_width_tables`, `C67_emoji_table`, `C67_no_marker`, `C68_number`, `C68_unique`, `C69_programs`, `C69_alignments`, `C69_format_item`, `C69_format_item_basic`, `C69_align_item`, `C69_header`, `C69_horizontal`, `C69_vertical`, `C69_not_if_unsound`, `C70_goroutines`, `C71_settings_of_a_call`, `C71_never_stale`, `C71_kept`, `C72_unique`, `C72_horizontal`, `C72_vertical`, `C73_pieces`, `C73_stringWidth`, `C74_source`, `C75_outcomes`, `C76_horizontal`, `C76_vertical`, `C77_horizontal`, `C77_vertical`, `C78_in_range`, `C78_zero`, `C79_horizontal`, `C79_vertical`, `C80_calls`, `C80_row`, `C81_grown`, `C81_covered`, `C82_quiet`, `C85_horizontal`, `C85_vertical`, `C85_ends`, `C86_chained`, `C87_horizontal`, `C87_vertical`, `C87_fixed_horizontal`, `C87_fixed_vertical`, `C88_stops`, `C89_steady`, `C89_range`, `C90_horizontal`, `C90_vertical`, `C91_rounds`, `C91_plain`, `C91_vertical`, `C92_horizontal`, `C92_vertical`, `C92_fixed_horizontal`, `C92_fixed_vertical`, `C92_smallest_length`, `C93_source`, `C94_lines`, `C94_not_fetched`, `C94_widths_cut`, `C94_emoji_cut`, `C94_emoji_missing`, `C94_always_tables`, `C95_intact`, `C95_trouble`, `C96_copy_covers`, `C96_other_maps`, `C96_overwritten`, `C97_answers`, `C97_ascii`, `C97_characters`, `C97_horizontal`, `C97_vertical`, `C97_format`, `C97_covered`, `C97_uncovered`, `C98_horizontal`, `C98_vertical`, `C98_bound`, `C99_not_go`, `C99_width_refused`, `C99_emoji_refused`, `C99_accepted`, `C99_hidden`, `C100_sum`, `C100_cells`, `C100_no_cell`, `C100_aligned`, `C101_units`, `C101_first`, `C101_emoji`, `C101_flags`, `C101_narrower_than_cluster`, `C102_in_force`, `C102_package_never_refreshes`, `C102_refresh`, `C102_variables`, `C103_without_flag`, `C103_with_flag`, `C103_zero`, `C103_new`, `C103_census`, `C104_one_character`, `C104_marks`, `C105_walk`, `C105_units`, `C105_accents`, `C105_plain`, `C105_flags`, `C105_emoji`, `C106_clusters`, `C106_width`, `C106_no_joiner`, `C106_same`, `C106_flag_text`, `C106_flag`, `C106_contextual`, `C106_visual`, `C107_clusters`, `C107_width`, `C107_on_letters`, `C107_wide`, `C107_equivalent`, `C108_horizontal`, `C108_vertical`, `C108_built_in`, `C108_equivalent`, `C108_recoloured`, `C109_alone`, `C109_readers`, `C109_format_item`, `C109_race_iff`, `C109_lost_row`, `C110_same_table`, `C110_session`.
* `Quot.sound`, `propext` (23 theorems): `C04_inTable_iff_member`, `C04_property_iff_member`, `C21_upToError`, `C22_updateWidth_is_maximum`, `C22_updateWidth_order`, `C24_registry`, `C25_formatItemBasic`, `C29_tableWidth`, `C43_platforms`, `C46_cluster_cases`, `C46_exceptions`, `C62_updateWidth`, `C64_trim`, `C64_not_if_listed_twice`, `C68_source`, `C75_flags`, `C75_sources`, `C79_exists`, `C80_ends`, `C82_quiet_exists`, `C83_basic`, `C84_align`, `C109_update_width`.
* `propext` (9 theorems): `C61_addColumn`, `C61_zero_spec`, `C62_tableWidth`, `C64_constants`, `C74_name_on_two_lines`, `C74_header_names_unused_file`, `C93_unique`, `C109_goroutines`, `C109_lost_update`.

## What is modelled and what is not

Modelled, function by function:

* alignment.go, horizontal.go, vertical.go, width.go, table.go, table_iface.go: everything. `TimeFormat` of
  `TableSpec` is never read by the repository and left out.
* runewidth/runewidth.go: everything, including histories of a `Condition` and of the package's default.
* runewidth_posix.go, runewidth_windows.go, runewidth_js.go, runewidth_appengine.go: the locale logic. `os.Getenv` is
  a function from names to values; the Windows call that reads the code page is a parameter.
* runewidth/uniseg: grapheme.go, graphemerules.go, properties.go, step.go, width.go and all tables.
* runewidth/script/generate.go and runewidth/uniseg/gen_properties.go: reading downloads byte by byte, sorting, compaction, printing,
  the command line and its outcomes.

Not modelled:

* Network access, gofmt and writing files in the two generators. (gofmt would refuse comments with NUL bytes, invalid
  UTF-8 or a byte order mark; no data file has them.)
* Unsynchronised concurrent use of one table (a data race on its width map).
* Memory exhaustion (including `make` with a capacity that is too large), running time. Go's `int` is unbounded except in
  `Model/Word.lean`, where C92 shows that the merges do not overflow 32 or 64 bits.

## Findings

Surprises found while proving; each has a theorem or an example in `Props/`.

Widths:

* `U+009B` starts an escape sequence for the regexp but has width 0 itself while one column is kept for it: the
  visual width of `"\u009b0m"` is 65535 (`C15_underflow_with_9b`); the exact formula is `C52_exact`.
* An extending character right after an escape sequence loses its width (`C52_lost_after_escape`); removing the
  sequences first can give a smaller result (`C53_stripped_narrower`).
* Control sequences with a parameter of five digits or more, OSC 8 hyperlinks, and final letters outside
  `[0-9A-ORZcf-nqry=><]` are not recognised and count as visible text.
* A width cached under earlier settings is used after the settings change (`C11_stale_after_settings_change`; exactly
  when: `C71_kept`).
* Aligned texts miss the width when the text ends in a Prepend character (left, centre) or starts with an extending one
  (right, centre): `C16_inexact_after_prepend`, `C17_inexact_before_extending`; a second alignment then pads again
  (`C19_not_idempotent_after_prepend`).
* Appending can make the visual width smaller (`C55_visualWidth_shrinks`: the appended text completes an escape
  sequence). Cutting inside a character can make it larger (`C55_cut_inside_character`, `C48_fails_inside_character`).
* In East Asian mode an invalid byte measures 2, more than its length (example beside C09).
* uniseg/width.go documents East Asian Wide as decisive before Extended_Pictographic; the code asks in the other order,
  so 12 code points documented with width 2 measure 1 (`C46_documentation_differs`).
* Flags, emoji with a variation selector and keycaps count one cell, where StepString of the same repository reports two
  (`C101_narrower_than_cluster`).
* The package-level `CreateLUT` does not refresh a table, though the method says to call `CreateLUT` again after changing
  settings (`C102_package_never_refreshes`). Copies of a condition share its table, so that refreshing one changes the
  widths of the others (`C102_refresh`).
* The runewidth tables are from Unicode 13, the uniseg tables from Unicode 14: 54 wide characters, 37 of them emoji, are
  measured as one cell (`C103_new`).
* Most combining marks of Hebrew, Arabic, Indic and other scripts are not in the runewidth table of combining characters
  and count one cell when they stand alone, skin tones and tone marks even two (`C104_one_character`).
* With the East Asian flag é counts two cells as one code point and one cell as e with a combining accent; for accented
  Greek and Cyrillic letters it is the reverse (`C106_flag`).
* `prAny = iota` is 1, not 0 as its comment says; behaviour is still right.

Tables:

* `FormatHeader` compares the number of bytes of a title with the column width, so a title that would fit can be
  replaced by the short one; a column of width 0 shows its whole title and breaks the layout
  (`C59_not_without_width`).
* `AlignFormattedItem` leaves cells of a column with nil alignment alone while the merges align them left
  (`C58_not_when_aligning`).
* Aligning rows before a compact merge changes its result (`C57_not_with_compaction`).
* An error in `FormatItem` leaves the widths of the columns before it updated (`C21_formatItem`).
* A getter that adds a column while `FormatItem` is at work does not lengthen the row, and `AlignFormattedItem` then turns
  the row down (examples beside C80 and C84). One that removes columns does not shorten it (C83).
* A copy of a `Table` shares its widths with the original (C96). A getter that overwrites the table it is called from
  with a new one makes `FormatItem` record the widths where nobody sees them (`C96_overwritten`).
* A getter that changes the width settings can leave cells formatted before it wider than their column
  (`C97_uncovered`).
* `AddColumn(nil)` and `AddColumn` on a zero `TableSpec` panic after the column has been appended (C61). A literal
  `&Table{TableSpec: spec}` panics as soon as a width other than 0 is to be recorded (C62).

Merges:

* A table without columns makes a merge divide by zero (`C38_no_columns`); so does an empty separator with all widths
  zero.
* `MergeRowsHorizontal` with compaction never returns if the width argument is -1 or at least 65535
  (`C37_never_widest`), or for one column with an empty separator when everything fits (`C37_never_narrow`). The
  exact condition is `C37_exact`.
* Negative width arguments are taken modulo 2^16 (`C40_clamp`); with the widest argument the sum of width and margin
  wraps around and one group per line is printed.
* With an empty separator the width computed for a group is less than what is printed, so lines can exceed the width
  (`C32_too_wide_without_separator`). Sums of compact widths wrap around at 65536 (`C33_wraps_around`).
* An empty item list prints nothing with one group per line and a blank line otherwise (`C30_empty`, `C31_empty`).
* The vertical search gives up at the first number of groups that leaves a column empty although a larger number may
  fit (`C35_vertical`, `C36_groups`).
* `Len` is trusted: a list that claims a negative length makes the vertical compact search divide by zero (examples
  beside C77) and the printing write a blank line or none; a list that grows with every question keeps the vertical
  search going, which otherwise always ends. Subtracting 1 from the smallest length wraps around, and blank lines are
  written for hundreds of years (`C92_smallest_length`).
* A column that is added while a merge is printing makes it panic with an index out of range in the middle of the
  listing, after calling the alignment of that column. One that is removed leaves empty cells without their width, so
  that the lines are no longer flush (examples beside C85).

Generators:

* script/generate.go skips every line with a space before the semicolon, as newer versions of EastAsianWidth.txt
  have, and would silently print empty tables (`C65_skipped`). Without the marker line the emoji table is empty
  (`C67_no_marker`); emoji ranges ending below U+00FF are dropped.
* script/generate.go looks neither at the HTTP status nor at the errors of its readers: a broken download gives shorter
  tables (`C94_widths_cut`), an error page six empty ones (example beside C94), which make every lookup panic, and a
  failure before the marker a source without `emoji`, which does not compile (`C94_emoji_missing`).
* script/generate.go accepts negative code points and prints them as `0x-005`; only gofmt stops it (C99). Runes wrap
  around when it compares the end of a range with the start of the next (`C99_hidden`).
* gen_properties.go: with a code point in both data files the table depends on an unstable sort
  (`C64_not_if_listed_twice`); the header always names emoji-data.txt (`C74_header_names_unused_file`); a table name
  with a line end becomes code (`C74_name_on_two_lines`); `gencat` panics on comments of less than three bytes
  (`C75_outcomes`), and its output would not compile in this package, which has no constants for general categories.

## Tests of the theorems against wrong programs

`seeded/LOG.jsonl` has one line per wrong program. Each was made by editing one definition of `Model/` in a scratch
copy. Up to two things were then done:

* *Rebuilding*, for the lines with `rebuilt: true`: `theorems_failed` then lists the theorems whose proofs no longer
  check, with the theorems as they stood at that time. This over-reports: a proof can break because a helper lemma did,
  though the statement is still true. Lines with `rebuilt: false` were only refuted, and `theorems_failed` repeats
  `refuted`.
* *Refuting*: in a copy of the edited model in which all theorems are assumed, `False` is derived from an instance of
  the theorem. `refuted` lists the theorems whose **statement** is false of the wrong program. The same derivation is
  checked to fail with the original model. Where an instance needs a fact of the specification alone (say, where the
  UAX #29 boundaries of a text are), that fact is first proved with the original model.

Every wrong program that breaks a claim makes a theorem of that claim fail, if need be after the tightening named in
`theorems_tightened`. Refuting was done for the earlier part of the log; lines with an empty `refuted` were only rebuilt,
so for them read `theorems_failed` with the reservation above. Entries with `equivalent: true` are controls: edits that
do not change what the program does; the theorems must remain true of them.

Lines named `sweep-…` are edits made by a script: in a definition chosen at random a number, a comparison, a condition or
an arithmetic operator is changed. Their builds were stopped at the first failure, so `theorems_failed` names only the
first theorem or lemma that failed, and `claim` is given only where that is a claim. Those that survived were looked at
one by one: either the edit changes nothing (`why` says why) or a theorem was tightened.

`theorems_tightened` names a theorem only where the wrong program was not caught by the theorem as it then stood.
Further statements were tightened after reading them with such programs in mind, before any was run against them: C16,
C17, C18 and C28 (number of spaces), C33 to C36 and C60 (number of columns), C74 and C75 (command line).
