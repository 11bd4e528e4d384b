{"id": "C01", "title": "Grapheme boundaries follow UAX #29", "statement": "Iterating uniseg.Graphemes over a string puts a cluster boundary between two adjacent code points exactly when the Unicode 14 extended-grapheme-cluster rules GB3-GB13 and GB999 do, given the code-point classes in the shipped property table.", "quantifier": "every byte string (any length, valid UTF-8 or not), every position in it", "why_tests_cant": "The rules look back without bound (emoji ZWJ sequences, runs of regional indicators), so no finite set of strings covers them.", "anchors": ["runewidth/uniseg/graphemerules.go:transitionGraphemeState", "runewidth/uniseg/graphemerules.go:grTransitions", "runewidth/uniseg/step.go:StepString", "runewidth/uniseg/grapheme.go:Graphemes.Next"]}
{"id": "C02", "title": "Grapheme iteration is lossless and finishes", "statement": "Before the first Next call Runes returns nil. The clusters returned by successive Next calls are non-empty, concatenate to exactly the input string, and run out after at most len(s) calls; from then on Next returns false and Runes returns nil for ever.", "quantifier": "every byte string; every number of further Next calls", "why_tests_cant": "Losing or duplicating a byte can depend on any combination of invalid bytes and cluster boundaries in strings of any length.", "anchors": ["runewidth/uniseg/grapheme.go:Graphemes.Next", "runewidth/uniseg/grapheme.go:NewGraphemes", "runewidth/uniseg/grapheme.go:Graphemes.Runes", "runewidth/uniseg/step.go:StepString"]}
{"id": "C03", "title": "StepString can be resumed through its packed state", "statement": "Passing the returned rest and state back to StepString gives the same clusters as the iterator over the whole string: the integer state carries everything needed, and packing the parser state and property into one int loses neither. On an empty string all results are empty or zero, whatever the state.", "quantifier": "every byte string and every resume point", "why_tests_cant": "The packed state must be right for each parser state and property pair at each boundary of every string.", "anchors": ["runewidth/uniseg/step.go:StepString", "runewidth/uniseg/step.go:shiftPropState", "runewidth/uniseg/step.go:maskGraphemeState"]}
{"id": "C04", "title": "Table lookups equal interval membership", "statement": "For every shipped code-point table, the binary search answers membership (or returns the property of the one interval) exactly: r is found iff some interval of the table contains r, and at most one does; no interval stands for the answer \"not found\".", "quantifier": "every rune from 0 to the largest int32 (a negative one never reaches a lookup), each of the shipped tables", "why_tests_cant": "Correctness needs sortedness and disjointness of thousands of intervals together with the search loop's boundary arithmetic; a sample of runes misses an off-by-one at one interval.", "anchors": ["runewidth/runewidth.go:inTable", "runewidth/runewidth.go:inTables", "runewidth/uniseg/properties.go:propertySearch", "runewidth/uniseg/properties.go:property", "runewidth/runewidth_table.go", "runewidth/uniseg/graphemeproperties.go"]}
{"id": "C05", "title": "RuneWidth is total and matches its table definition", "statement": "RuneWidth returns 0, 1 or 2 for every int32; it is 0 outside 0..0x10FFFF; and without the East Asian flag the hand-optimised switch gives the same answer as the plain definition: 0 for non-printing or combining, else 2 for double width, else 1; with the flag: 0 for non-printing or combining, else 1 for narrow, else 2 for ambiguous or double width, else 2 for emoji when strict emoji neutrality is off, else 1.", "quantifier": "every int32 rune and every combination of the two flags", "why_tests_cant": "The comment claims equivalence of a fast path to table lookups over 1.1M code points; the repository checks it by hash only for two of the four flag settings.", "anchors": ["runewidth/runewidth.go:Condition.RuneWidth"]}
{"id": "C06", "title": "The lookup table changes nothing but speed", "statement": "After CreateLUT on a condition, RuneWidth returns for every rune what it returned without the table under the flags at that time; calling CreateLUT again after changing flags refreshes it for the new flags; no table index is out of range.", "quantifier": "every rune, every history of flag changes and CreateLUT calls", "why_tests_cant": "The invariant must survive every interleaving of flag writes and rebuilds, and the nibble packing must be right for every rune.", "anchors": ["runewidth/runewidth.go:Condition.CreateLUT", "runewidth/runewidth.go:Condition.RuneWidth"]}
{"id": "C07", "title": "The default condition stays coherent", "statement": "Under any sequence of environment re-reads and package-level CreateLUT calls, the default condition's widths equal the plain widths for its current East Asian flag, and that flag equals the one last derived from the environment. Once package-level CreateLUT has been called, neither new settings of the default condition nor calling it again change a width.", "quantifier": "every history of environment values, handleEnv and CreateLUT calls; every rune", "why_tests_cant": "A stale table after one particular order of calls is invisible to tests that use another order.", "anchors": ["runewidth/runewidth.go:init", "runewidth/runewidth.go:handleEnv", "runewidth/runewidth.go:NewCondition", "runewidth/runewidth.go:CreateLUT", "runewidth/runewidth.go:DefaultCondition"]}
{"id": "C08", "title": "East Asian and emoji flags only ever widen", "statement": "Turning the East Asian flag on never makes a rune or a string narrower, and turning strict emoji neutrality off never does either.", "quantifier": "every rune, every string, all flag combinations", "why_tests_cant": "Monotonicity over all code points and all clusterings cannot be sampled.", "anchors": ["runewidth/runewidth.go:Condition.RuneWidth", "runewidth/runewidth.go:Condition.StringWidth"]}
{"id": "C09", "title": "StringWidth is bounded by byte length and cluster count", "statement": "StringWidth(s) is at most twice the number of grapheme clusters of s; without the East Asian flag it is at most len(s) for every byte string, and with the flag it is at most len(s) for every valid UTF-8 string.", "quantifier": "every byte string, all flag settings", "why_tests_cant": "The bound relates every code point's table width to its encoded length; header fitting (len(title) <= width) silently relies on it.", "anchors": ["runewidth/runewidth.go:Condition.StringWidth", "table.go:Table.padColumnHeader"]}
{"id": "C10", "title": "Printable ASCII is measured by length", "statement": "For a string of printable ASCII characters StringWidth is its length, in every flag setting, and it adds exactly its length to any string it is appended to that does not end in a Prepend character.", "quantifier": "every printable ASCII string of any length, every string it is appended to", "why_tests_cant": "Must hold at every length and context; padding with spaces depends on it.", "anchors": ["runewidth/runewidth.go:Condition.StringWidth"]}
{"id": "C11", "title": "The width cache is invisible", "statement": "With the width settings unchanged, every visualWidth call made by the library returns the width computed from scratch, whatever calls came before and whatever the cache chose to evict.", "quantifier": "every history of calls, every eviction behaviour of the cache", "why_tests_cant": "A stale or wrongly keyed entry shows only after particular histories and evictions.", "anchors": ["width.go:visualWidth", "width.go:widthCache"]}
{"id": "C12", "title": "The width cache is invisible under concurrency", "statement": "If cache operations are atomic, concurrent visualWidth calls on any number of goroutines each return the width computed from scratch under every interleaving.", "quantifier": "every number of goroutines, every interleaving, every eviction behaviour", "why_tests_cant": "Interleavings cannot be enumerated by tests.", "anchors": ["width.go:visualWidth", "width.go:widthCache"]}
{"id": "C13", "title": "Text without escape introducers is measured as it is", "statement": "If a string contains neither U+001B nor U+009B, its visual width is StringWidth of it, modulo 2^16.", "quantifier": "every byte string without those code points", "why_tests_cant": "The escape matcher must never fire on any other text of any length.", "anchors": ["width.go:visualWidth", "width.go:countMatchesLength", "width.go:ansiEscapeRE"]}
{"id": "C14", "title": "SGR colour sequences are invisible", "statement": "Inserting SGR colour sequences (ESC [ parameters m, each parameter at most four digits) before, after or between text segments does not change the visual width: it is the sum of the segments' widths, provided no segment starts with an extending character.", "quantifier": "every sequence of text segments and SGR sequences, of any number and length", "why_tests_cant": "Sequences of any length, any parameters, any placement; backtracking of the matcher must never split or overrun one.", "anchors": ["width.go:visualWidth", "width.go:countMatchesLength", "width.go:ansiEscapeRE"]}
{"id": "C15", "title": "Width subtraction does not underflow", "statement": "For a string without U+009B the bytes subtracted for escape sequences never exceed StringWidth, so the visual width is the true difference when that is below 65536.", "quantifier": "every byte string without U+009B", "why_tests_cant": "An underflow wraps to about 65535 and needs an escape shape nobody thought of.", "anchors": ["width.go:visualWidth", "width.go:countMatchesLength"]}
{"id": "C16", "title": "AlignmentLeft pads to exactly the width", "statement": "AlignmentLeft(s, w) is s followed by exactly as many spaces as the visual width of s falls short of w; it returns s itself when s is already at least w wide, and otherwise has visual width exactly w, provided s does not end in a Prepend character.", "quantifier": "every byte string and every uint16 width, all width settings", "why_tests_cant": "Needs the width of every string to be additive under appended spaces.", "anchors": ["alignment.go:AlignmentLeft"]}
{"id": "C17", "title": "AlignmentRight pads to exactly the width", "statement": "AlignmentRight(s, w) is exactly as many spaces as the visual width of s falls short of w, then s; it returns s itself when s is already at least w wide, and otherwise has visual width exactly w, provided s does not start with an extending character.", "quantifier": "every byte string and every uint16 width, all width settings", "why_tests_cant": "Needs the width of every string to be additive under prepended spaces.", "anchors": ["alignment.go:AlignmentRight"]}
{"id": "C18", "title": "AlignmentCenter pads to exactly the width and is balanced", "statement": "AlignmentCenter(s, w) is left spaces, s, right spaces, together as many as the visual width of s falls short of w; the left side has as many spaces as the right or one more; s comes back unchanged when at least w wide; otherwise the visual width is exactly w for s that neither starts with an extending character nor ends in a Prepend character.", "quantifier": "every byte string and every uint16 width, all width settings", "why_tests_cant": "As for the other alignments, plus rounding for every difference.", "anchors": ["alignment.go:AlignmentCenter"]}
{"id": "C19", "title": "Alignment is idempotent and never truncates", "statement": "Aligning an already aligned string to the same width changes nothing, and the original string always occurs whole in the result.", "quantifier": "every byte string (subject to the edge conditions above), every width", "why_tests_cant": "Universal over strings and widths.", "anchors": ["alignment.go:AlignmentLeft", "alignment.go:AlignmentRight", "alignment.go:AlignmentCenter"]}
{"id": "C20", "title": "Column width is the maximum ever seen", "statement": "After any history of FormatItem and UpdateWidth calls on a table, Width(name) is the maximum of the widths supplied for that name by UpdateWidth and the visual widths of the cells formatted for columns of that name (0 if none); it never decreases.", "quantifier": "every history of calls, items, getters and column sets (including repeated column names)", "why_tests_cant": "A maximum over unbounded histories, with failing items in between.", "anchors": ["table.go:Table.FormatItem", "table.go:Table.UpdateWidth", "table.go:Table.Width"]}
{"id": "C21", "title": "FormatItem returns one formatted cell per column or the first error", "statement": "FormatItem calls Value then Format of each column's getter in column order, stops at the first error and returns that error with no cells; the widths of the columns before the failing one are still recorded; on success it returns exactly the formatted values in column order.", "quantifier": "every column list, item and getter behaviour", "why_tests_cant": "Every position of the first failing call.", "anchors": ["table.go:Table.FormatItem"]}
{"id": "C22", "title": "UpdateWidth does not depend on map order", "statement": "UpdateWidth takes the pointwise maximum, whatever order the map is iterated in; calls commute and repeating one changes nothing.", "quantifier": "every width map, every iteration order, every table state", "why_tests_cant": "Go randomises map iteration.", "anchors": ["table.go:Table.UpdateWidth"]}
{"id": "C23", "title": "Tables share columns through the spec but not widths", "statement": "Columns added through a table or its spec are seen by all tables made from that spec and by no other; widths recorded in one table are never seen in another.", "quantifier": "every history of NewTableSpec, NewTable, AddColumn, UpdateWidth and FormatItem over any number of specs and tables", "why_tests_cant": "Aliasing errors need particular histories.", "anchors": ["table.go:NewTable", "table.go:NewTableSpec", "table.go:TableSpec.AddColumn"]}
{"id": "C24", "title": "Column registry reflects the additions", "statement": "After any sequence of AddColumn calls on a new spec, the columns are exactly those added, in order; ColumnCount is their number; HasColumn(name) holds iff one of that name was added, and the by-name entry is the last one added with that name.", "quantifier": "every sequence of AddColumn calls, including duplicate names", "why_tests_cant": "Universal over histories.", "anchors": ["table.go:TableSpec.AddColumn", "table.go:TableSpec.HasColumn", "table.go:TableSpec.ColumnCount"]}
{"id": "C25", "title": "FormatItemBasic joins or returns the first error", "statement": "FormatItemBasic returns the getters' ValueString results joined by the separator in column order, or the empty string and the first error, without calling later getters.", "quantifier": "every column list, item, separator and getter behaviour", "why_tests_cant": "Every position of the first failing call, every column count.", "anchors": ["table.go:Table.FormatItemBasic"]}
{"id": "C26", "title": "AlignFormattedItem checks arity and writes in place", "statement": "AlignFormattedItem returns an error and leaves the caller's slice alone when its length differs from the column count; otherwise it overwrites the caller's slice in place with the aligned cells, leaving cells of columns without alignment as they were, and returns that same slice.", "quantifier": "every slice, table and alignment functions; every other slice in memory", "why_tests_cant": "Aliasing and arity for every size.", "anchors": ["table.go:Table.AlignFormattedItem"]}
{"id": "C27", "title": "Format then align gives equal-width columns", "statement": "If every item was formatted by FormatItem on a table, then aligning each of the formatted rows gives in each column with a built-in alignment cells of visual width exactly Width(column), on every row.", "quantifier": "every list of items and columns with built-in alignments, cells that neither start with an extending character nor end in a Prepend character", "why_tests_cant": "The two-pass protocol must work for every item list.", "anchors": ["table.go:Table.FormatItem", "table.go:Table.AlignFormattedItem", "alignment.go"]}
{"id": "C28", "title": "Headers line up with their columns", "statement": "In FormatHeader every column with non-zero width contributes a text of visual width exactly that width: the title if its byte length fits, else the short title if that fits, else blanks; columns of width zero contribute the bare title; each is followed by the separator and the header ends in a newline.", "quantifier": "every table and separator; for the exact width, titles (valid UTF-8, or any bytes without East Asian widths) without U+009B that neither start with an extending character nor end in a Prepend character", "why_tests_cant": "Byte length decides fitting while visual width decides padding; equality must hold for every title.", "anchors": ["table.go:Table.padColumnHeader", "table.go:Table.FormatHeader"]}
{"id": "C29", "title": "TableWidth is the sum of widths and margins", "statement": "TableWidth(margin) equals the sum of the column widths plus (number of columns - 1) margins whenever that sum is below 65536 and there is at least one column; in general it is that integer modulo 2^16.", "quantifier": "every table and margin", "why_tests_cant": "uint16 wrap-around for every column count.", "anchors": ["table.go:Table.TableWidth"]}
{"id": "C30", "title": "MergeRowsHorizontal prints every item once, row by row", "statement": "When MergeRowsHorizontal completes on a non-empty list, there is a group count g >= 1 such that line i holds, in order, items i*g .. i*g+g-1 (as many as exist), each rendered as its aligned cells joined by one space, groups joined by the separator, with one trailing separator exactly when the line is short; there are ceil(n/g) lines.", "quantifier": "every item list, column set, separator, width argument and compact flag", "why_tests_cant": "Index arithmetic over every n and g.", "anchors": ["horizontal.go:Table.MergeRowsHorizontal"]}
{"id": "C31", "title": "MergeRowsVertical prints every item once, column by column", "statement": "When MergeRowsVertical completes on a non-empty list, there is a group count g >= 1 and L = ceil(n/g) lines such that line i holds, in order, items i, i+L, i+2L, ... (at most g, as many as exist), rendered as for the horizontal merge; every item appears exactly once.", "quantifier": "every item list, column set, separator, width argument and compact flag", "why_tests_cant": "Index arithmetic over every n and g.", "anchors": ["vertical.go:Table.MergeRowsVertical"]}
{"id": "C32", "title": "Non-compact lines fit the requested width", "statement": "In a non-compact merge whose separator is not empty, every printed line has visual width at most maxWidth, whenever one item fits and no uint16 sum overflows.", "quantifier": "every table, non-empty item list whose cells fit the recorded widths, separator and width in range; columns with built-in alignments, cells without U+009B and narrower than 65536 that neither start with an extending character nor end in a Prepend character; separators of printable ASCII, not empty, that cannot continue an escape sequence unless no cell has an introducer of one", "why_tests_cant": "The group count is computed with a different separator width than the one printed; the inequality must hold for all sizes.", "anchors": ["horizontal.go:Table.MergeRowsHorizontal", "vertical.go:Table.MergeRowsVertical"]}
{"id": "C33", "title": "Compact lines fit the requested width", "statement": "In a compact merge that found extra groups, every printed line has visual width at most maxWidth, provided the true total width does not reach 65536.", "quantifier": "every table, non-empty item list, separator and width; columns with built-in alignments, cells without U+009B and narrower than 65536 that neither start with an extending character nor end in a Prepend character; separators of printable ASCII, not empty, that cannot continue an escape sequence unless no cell has an introducer of one", "why_tests_cant": "Per-group maxima over all items and all group counts.", "anchors": ["horizontal.go:Table.compactCalcH", "vertical.go:Table.compactCalcV", "horizontal.go:Table.mergedRowsWidthH", "vertical.go:Table.mergedRowsWidthV"]}
{"id": "C34", "title": "Merged columns line up across lines", "statement": "In a merged listing whose columns use built-in alignments, the cell of column c in group j starts at the same visual offset on every line that has that cell.", "quantifier": "every table, non-empty item list whose cells fit the recorded widths, separator, width, compact flag; columns with built-in alignments, cells without U+009B and narrower than 65536 that neither start with an extending character nor end in a Prepend character; separators of printable ASCII, not empty, that cannot continue an escape sequence unless no cell has an introducer of one", "why_tests_cant": "This is the purpose of the library and ranges over all inputs.", "anchors": ["horizontal.go:Table.MergeRowsHorizontal", "vertical.go:Table.MergeRowsVertical"]}
{"id": "C35", "title": "Compact search stops at the first group count that does not fit", "statement": "The compact merge uses at least as many groups as the non-compact one with the same arguments; every group count between the two fits, and the next one does not fit (or, vertically, would leave its last group empty).", "quantifier": "every table, item list, separator and width on which the search ends", "why_tests_cant": "Greedy search over unbounded group counts.", "anchors": ["horizontal.go:Table.compactCalcH", "vertical.go:Table.compactCalcV"]}
{"id": "C36", "title": "Vertical merge always terminates", "statement": "MergeRowsVertical returns (or panics) for all arguments, and in compact mode never uses more groups than the non-compact count or the number of items, whichever is larger.", "quantifier": "all arguments", "why_tests_cant": "Termination for all inputs.", "anchors": ["vertical.go:Table.compactCalcV", "vertical.go:Table.mergedRowsWidthV"]}
{"id": "C37", "title": "Horizontal compact merge: when it terminates", "statement": "The compact horizontal merge terminates whenever the width one more group adds once the items have run out (separator length plus columns minus one) is positive and at most 65535 - maxWidth; it never terminates when maxWidth is 65535 (or larger, or -1), nor when that added width is 0 (empty separator, one column) and all items fit on one line.", "quantifier": "all arguments", "why_tests_cant": "Non-termination cannot be observed by a test.", "anchors": ["horizontal.go:Table.compactCalcH"]}
{"id": "C38", "title": "When a merge can panic", "statement": "A merge never indexes items out of range and never indexes its width table out of range; it panics exactly when the table width plus separator length is 0 modulo 2^16 (division by zero, in particular always with no columns), when a row it reads has fewer cells than there are columns, or when the writer fails.", "quantifier": "all arguments", "why_tests_cant": "Absence of panics for all inputs.", "anchors": ["horizontal.go:Table.MergeRowsHorizontal", "vertical.go:Table.MergeRowsVertical"]}
{"id": "C39", "title": "A failing writer stops the merge at that line", "statement": "If the writer fails on its k-th write, exactly the first k lines have been handed to it, in order, one write per line, and the merge panics; if it never fails, each line is written once.", "quantifier": "every writer failure pattern, every merge", "why_tests_cant": "Every failure point.", "anchors": ["horizontal.go:Table.MergeRowsHorizontal", "vertical.go:Table.MergeRowsVertical"]}
{"id": "C40", "title": "Width argument: clamping and monotonicity", "statement": "Every width argument of at least 65535 behaves as 65535 and a negative one as its value modulo 2^16; for arguments in 0..65535-len(sep), a wider line never gives fewer groups.", "quantifier": "all width arguments", "why_tests_cant": "Integer conversion over the whole int range.", "anchors": ["horizontal.go:Table.MergeRowsHorizontal", "vertical.go:Table.MergeRowsVertical"]}
{"id": "C41", "title": "Locale detection", "statement": "IsEastAsian uses the first non-empty of LC_ALL, LC_CTYPE, LANG; it is false for C, POSIX, C.*, C-*; false when the charset ends in @cjk_narrow; otherwise true exactly when the charset (what follows the dot in ll[l][_CC].charset, else the whole locale, lower-cased, cut at @) is a known multi-byte one and either does not begin with u or the locale begins with ja, ko or zh.", "quantifier": "every value of the three environment variables, any lower-casing function", "why_tests_cant": "Every locale string.", "anchors": ["runewidth/runewidth_posix.go:IsEastAsian", "runewidth/runewidth_posix.go:isEastAsian"]}
{"id": "C42", "title": "Locale detection never panics", "statement": "isEastAsian never indexes an empty charset and gives an answer for every locale string.", "quantifier": "every byte string, any lower-casing function", "why_tests_cant": "Absence of a panic for all inputs.", "anchors": ["runewidth/runewidth_posix.go:isEastAsian"]}
{"id": "C43", "title": "RUNEWIDTH_EASTASIAN overrides the locale", "statement": "If RUNEWIDTH_EASTASIAN is set and not empty the East Asian flag is on exactly when it is 1, whatever the locale; otherwise it is what locale detection says: on POSIX systems from the locale, on Windows from the code page of the console (on for 932, 51932, 936, 949 and 950 only), and elsewhere off.", "quantifier": "every environment", "why_tests_cant": "Every environment.", "anchors": ["runewidth/runewidth.go:handleEnv", "runewidth/runewidth_windows.go:IsEastAsian", "runewidth/runewidth_js.go:IsEastAsian", "runewidth/runewidth_appengine.go:IsEastAsian"]}
{"id": "C44", "title": "Range compaction preserves membership", "statement": "The table generator's compaction of ranges keeps exactly the same set of code points, keeps a sorted list sorted, and leaves no two neighbouring ranges adjacent; on sorted input the result is the only such list. The shipped tables are all in this form.", "quantifier": "every list of non-empty ranges of runes up to 2^31 - 1, sorted or not", "why_tests_cant": "Index juggling in an in-place loop, any list.", "anchors": ["runewidth/script/generate.go:shapeup"]}
{"id": "C45", "title": "Hangul syllables are classed by arithmetic", "statement": "The property table gives LV to exactly the precomposed Hangul syllables without trailing consonant (offset from U+AC00 divisible by 28) and LVT to exactly the other precomposed syllables.", "quantifier": "every code point", "why_tests_cant": "11172 syllables spread over 798 table rows.", "anchors": ["runewidth/uniseg/graphemeproperties.go:graphemeCodePoints"]}
{"id": "C46", "title": "StepString's cluster width", "statement": "The width returned in the upper bits of StepString's boundaries is that of its documentation: it is never negative, is the rune's width for a cluster of a single code point, and is 2 for a cluster of more than one code point that ends with U+FE0F or for an emoji cluster of more than one code point not ending in U+FE0E. For a single code point the documented order of tests is wrong for exactly 12 code points, which are both East Asian Wide and pictographic: they are documented as 2 and measured 1.", "quantifier": "every byte string", "why_tests_cant": "Every cluster shape.", "anchors": ["runewidth/uniseg/step.go:StepString", "runewidth/uniseg/width.go:runeWidth"]}
{"id": "C47", "title": "Invalid UTF-8 is measured byte by byte", "statement": "Every byte string is handled: decoding makes progress on each byte, an invalid byte counts as one replacement character, and appending text that starts with an ASCII byte never changes how the bytes before it are decoded.", "quantifier": "every byte string", "why_tests_cant": "All malformed inputs.", "anchors": ["runewidth/uniseg/step.go:StepString", "runewidth/runewidth.go:Condition.StringWidth"]}
{"id": "C48", "title": "StringWidth is subadditive", "statement": "StringWidth(a+b) is at most StringWidth(a) + StringWidth(b): joining strings can merge clusters but never adds width; in particular every prefix-to-whole growth is bounded by what is appended.", "quantifier": "every pair of valid UTF-8 strings, all flag settings", "why_tests_cant": "Depends on how the segmentation of b shifts after every possible a (regional indicators re-pair).", "anchors": ["runewidth/runewidth.go:Condition.StringWidth"]}
{"id": "C49", "title": "Merging leaves its inputs alone", "statement": "A merge reads only rows 0..Len-1, never changes the recorded widths and can be repeated with the same result; without columns' alignment functions changing, output depends only on the rows, widths and arguments.", "quantifier": "all arguments", "why_tests_cant": "Aliasing for all inputs.", "anchors": ["horizontal.go:Table.MergeRowsHorizontal", "vertical.go:Table.MergeRowsVertical"]}
{"id": "C50", "title": "Windows and POSIX agree on code pages", "statement": "For every number n, console code page n counts as East Asian on Windows exactly when the charset cp<n> counts as East Asian on POSIX, in every ll[l][_CC] locale.", "quantifier": "every code page number, every language and country", "why_tests_cant": "Two independently written lists in files that are never compiled together.", "anchors": ["runewidth/runewidth_windows.go:IsEastAsian", "runewidth/runewidth_posix.go:isEastAsian"]}
{"id": "C51", "title": "Escape sequences are found left to right, longest first", "statement": "Every text can be cut, in exactly one way, into plain texts and escape sequences, where each sequence is the longest one starting at the first place where any starts. What the visual width leaves out of StringWidth is exactly all but the first byte of each of these sequences, modulo 2^16.", "quantifier": "every byte string, all flag settings", "why_tests_cant": "The regular expression prefers alternatives in order; that this always is the longest match needs an argument over all texts.", "anchors": ["width.go:visualWidth", "width.go:ansiEscapeRE"]}
{"id": "C52", "title": "The visual width is the width of the visible text", "statement": "If no plain text after an escape sequence starts with an extending character, the visual width is the sum of the StringWidths of the plain texts, less one for each sequence led by U+009B, modulo 2^16. In general, the extending characters with which a plain text after a sequence starts have no width; the rest of that text counts as if it stood alone.", "quantifier": "every byte string, all flag settings", "why_tests_cant": "Any number and arrangement of sequences.", "anchors": ["width.go:visualWidth"]}
{"id": "C53", "title": "Stripping escape sequences", "statement": "For valid UTF-8 without U+009B, the StringWidth of the text with its escape sequences taken out is at most the visual width, if no plain text after a sequence starts with an extending character and the StringWidth of the whole is less than 65536; and equal, modulo 2^16, if each plain text after a sequence starts with a character of class Other and none ends in a Prepend character. It can be less: two regional indicators kept apart by a sequence join.", "quantifier": "every valid UTF-8 text under the conditions named, all flag settings", "why_tests_cant": "Compares two methods on all texts.", "anchors": ["width.go:visualWidth"]}
{"id": "C54", "title": "Widths add up across control characters", "statement": "StringWidth(a + c + b) = StringWidth(a) + StringWidth(b) for every ASCII control character c, other than a CR before LF; the visual width likewise unless c is ESC. So a text of several lines is as wide as its lines together.", "quantifier": "all byte strings a and b, all flag settings", "why_tests_cant": "Cluster segmentation on both sides of the character, any text.", "anchors": ["runewidth/runewidth.go:Condition.StringWidth", "width.go:visualWidth"]}
{"id": "C55", "title": "Appending never narrows", "statement": "StringWidth(a) is at most StringWidth(a+b), and equal if b consists of characters of width 0. The visual width can shrink, by completing an escape sequence.", "quantifier": "every byte string a, every valid UTF-8 string b, all flag settings", "why_tests_cant": "Appended characters can join the last cluster and change its segmentation.", "anchors": ["runewidth/runewidth.go:Condition.StringWidth"]}
{"id": "C56", "title": "Formatting items, then merging them", "statement": "If FormatItem succeeds on every item, the rows it returned have a cell for each column, and no cell is wider than the table's recorded width, not even those formatted first. Merging these rows with the same table never panics, with or without compaction, and without compaction every printed line fits in the given width unless a single item does not.", "quantifier": "every table with at least one column, every list of items and getters (with any state), every width, every non-empty separator of printable ASCII that cannot continue an escape sequence unless no cell has an introducer of one, as long as one item with its separator is narrower than 65536; line widths: built-in alignments, cells that join neither neighbour, as in the claims about line widths", "why_tests_cant": "The whole path from items to printed lines, for any number of items and columns.", "anchors": ["table.go:Table.FormatItem", "horizontal.go:Table.MergeRowsHorizontal", "vertical.go:Table.MergeRowsVertical"]}
{"id": "C57", "title": "Aligning rows before a merge", "statement": "Passing rows through AlignFormattedItem before MergeRowsHorizontal or MergeRowsVertical without compaction does not change what is printed. With compaction it can.", "quantifier": "every table with built-in alignments, all rows whose cells neither start with an extending character nor end in a Prepend character, every width, separator and writer", "why_tests_cant": "Padding twice must give the same bytes for every text.", "anchors": ["table.go:Table.AlignFormattedItem", "horizontal.go:Table.MergeRowsHorizontal", "vertical.go:Table.MergeRowsVertical"]}
{"id": "C58", "title": "No alignment means left, when merging", "statement": "In both merges a column without Alignment is treated as one with AlignmentLeft, panics and errors included. AlignFormattedItem instead leaves its cells alone.", "quantifier": "every table, items, width, separator, compaction mode and writer", "why_tests_cant": "Equality of whole runs for all inputs.", "anchors": ["horizontal.go:Table.MergeRowsHorizontal", "vertical.go:Table.MergeRowsVertical", "table.go:Table.AlignFormattedItem"]}
{"id": "C59", "title": "The header lines up with the rows", "statement": "FormatHeader(sep) and an aligned row joined with sep have each column at the same offset and equally wide, if no recorded width is 0. A column of width 0 has its whole title in the header and so shifts the others.", "quantifier": "every table with built-in alignments, every row no wider than recorded, titles and cells that join neither neighbour, every separator of printable ASCII that cannot continue an escape sequence", "why_tests_cant": "Offsets sum over any number of columns and any texts.", "anchors": ["table.go:Table.FormatHeader", "table.go:Table.AlignFormattedItem"]}
{"id": "C60", "title": "Horizontal and vertical merges have the same shape", "statement": "Without compaction the two merges of the same rows use the same number of groups and print the same number of lines, each cell padded to the same width; they print the same bytes if there is one group or one line.", "quantifier": "every table, every non-empty item list, width and separator for which the merge does not panic", "why_tests_cant": "Two loops in different order over any number of items.", "anchors": ["horizontal.go:Table.MergeRowsHorizontal", "vertical.go:Table.MergeRowsVertical"]}
{"id": "C61", "title": "Adding columns to a spec made as a literal", "statement": "AddColumn always appends its argument to Columns. It panics exactly if the column or the ColumnByName map is nil; then the name is not registered although the column is counted. So with TableSpec{} every AddColumn panics, ColumnCount grows and HasColumn stays false.", "quantifier": "every spec, nil maps and nil columns included, every sequence of additions", "why_tests_cant": "State left behind by a panic, after any sequence of calls.", "anchors": ["table.go:TableSpec.AddColumn", "table.go:TableSpec.HasColumn", "table.go:TableSpec.ColumnCount"]}
{"id": "C62", "title": "Tables made as a literal", "statement": "A Table not made by NewTable has no width map: UpdateWidth panics exactly if some given width is not 0; FormatItem panics exactly if some cell formatted before any error has a visual width other than 0 and otherwise returns the same as always; TableWidth counts all widths as 0. With a nil column FormatItem never returns a row.", "quantifier": "all columns, getters (with any state), items, width maps, all flag settings", "why_tests_cant": "Which of panic, error and row comes first depends on any sequence of getters.", "anchors": ["table.go:Table.UpdateWidth", "table.go:Table.FormatItem", "table.go:Table.TableWidth"]}
{"id": "C63", "title": "The property generator reads lines exactly", "statement": "A line of a Unicode property file is accepted exactly if it consists of a code point or range of 4 to 6 upper case hexadecimal digits, a semicolon, a property name, and a comment; it is then cut into these parts, which are determined by the line.", "quantifier": "every line (byte string)", "why_tests_cant": "A regular expression with backtracking, on any text.", "anchors": ["runewidth/uniseg/gen_properties.go:parseProperty"]}
{"id": "C64", "title": "Generated property tables answer as the data files say", "statement": "Looking a code point up in a generated table gives the property of the line that lists it, or none; if a data line is malformed generation fails with the number of the first such line. If two lines list the same code point the result depends on the sort.", "quantifier": "every pair of data files, every outcome of the unstable sort, every code point", "why_tests_cant": "Parsing, sorting and binary search composed, for all files.", "anchors": ["runewidth/uniseg/gen_properties.go:parse", "runewidth/uniseg/gen_properties.go:translateProperty", "runewidth/uniseg/properties.go:propertySearch"]}
{"id": "C65", "title": "The width generator reads lines exactly", "statement": "A line range;class of the width file is read as that range and class, and a line of the emoji file as its range unless that ends below U+00FF. Comments, empty lines and lines with a space between range and semicolon (as newer versions of the file have) are skipped. Among all lines, a line of the width file counts exactly if it does not start with #, and has a number or two with .. between them, then a semicolon, then a word without white space that ends at white space other than a line end or at the end of the line; white space other than line ends may stand before each number and before the word, and a plus or minus sign before a number; digits may have either case. A byte of the word that is not valid UTF-8 is read as U+FFFD. A line of the emoji file counts exactly if it does not start with #, starts with such a range, goes on with such white space or ends, and the range does not end below U+00FF.", "quantifier": "every line, any number of digits for values from -2^31 to 2^31 - 1, any text after the class", "why_tests_cant": "Scanning with fmt formats over any text.", "anchors": ["runewidth/script/generate.go:eastasian", "runewidth/script/generate.go:emoji"]}
{"id": "C66", "title": "Generated width tables answer as the data file says", "statement": "Each of the five tables generated from a width file in order finds exactly the code points listed under its classes, the combining table those of the lines that contain COMBINING, and no two neighbouring ranges could be one.", "quantifier": "every ordered file of any length, every code point", "why_tests_cant": "Scanning, compaction and binary search composed, for all files.", "anchors": ["runewidth/script/generate.go:eastasian", "runewidth/script/generate.go:shapeup", "runewidth/runewidth.go:inTable"]}
{"id": "C67", "title": "The generated emoji table answers as the data file says", "statement": "The emoji table finds exactly the code points of the ranges listed after the first line naming Extended_Pictographic ; No, except ranges ending below U+00FF. Without such a line the table is empty.", "quantifier": "every file with ordered data after the marker, every code point", "why_tests_cant": "Scanning, compaction and binary search composed, for all files.", "anchors": ["runewidth/script/generate.go:emoji", "runewidth/script/generate.go:shapeup", "runewidth/runewidth.go:inTable"]}
{"id": "C68", "title": "The printed table is the table", "statement": "The Go source printed for a table denotes exactly its ranges: every number has at least four upper case hexadecimal digits denoting it (more only if the first is not 0), all entries are there in order, and the text can be read as no other table.", "quantifier": "every name, every list of any length of ranges that are not negative", "why_tests_cant": "Printing and reading back, for all tables.", "anchors": ["runewidth/script/generate.go:generate"]}
{"id": "C69", "title": "No call of the package shows that widths are cached", "statement": "With the width settings unchanged, every program that uses the package (FormatItem, FormatItemBasic, AlignFormattedItem, FormatHeader, both merges, the alignments, with getters and alignment functions that may themselves measure texts) gets the same results as if every width were computed from scratch, whatever the cache holds from earlier calls on any table and whatever it evicts.", "quantifier": "every program, table, getter, alignment, item list, width, separator, writer, every eviction pattern, every cache of true widths", "why_tests_cant": "Every measurement may be answered from the cache or not; any number of them, in programs of any length.", "anchors": ["width.go:visualWidth", "table.go:Table.FormatItem", "table.go:Table.AlignFormattedItem", "table.go:Table.FormatHeader", "horizontal.go:Table.MergeRowsHorizontal", "vertical.go:Table.MergeRowsVertical"]}
{"id": "C70", "title": "Goroutines with their own tables do not disturb each other", "statement": "Any number of goroutines that use the package on their own tables, with any interleaving of their operations on the shared width cache and any evictions: each gets the results it would get alone, and none is ever stuck. (Assumes that single cache operations are atomic.)", "quantifier": "every number of goroutines, every program each of them runs, every interleaving, every eviction pattern", "why_tests_cant": "All interleavings of programs of any length.", "anchors": ["width.go:visualWidth", "width.go:widthCache"]}
{"id": "C71", "title": "How stale a width can be", "statement": "If the width settings change while the program runs, the width used for a text is its width under the settings of the present call or of an earlier call for the same text; while nothing is evicted it is the first width other than 0 ever measured for it. A text whose characters have the same width under all settings used is never measured wrongly.", "quantifier": "every sequence of calls, settings and evictions", "why_tests_cant": "Sequences of calls of any length with settings changing in between.", "anchors": ["width.go:visualWidth", "width.go:widthCache"]}
{"id": "C72", "title": "The description of merged output leaves no choice", "statement": "Given columns, rows with a cell for every column and a non-empty list, the number of groups and the widths described in the claims on merged listings are unique, and a merge call returns a result if and only if it is the listing so described: nothing else can be written, and whenever such a listing exists the call ends with it.", "quantifier": "every table, item list, width argument, separator, compaction setting", "why_tests_cant": "Uniqueness over all group counts and width assignments, and all inputs.", "anchors": ["horizontal.go:Table.MergeRowsHorizontal", "vertical.go:Table.MergeRowsVertical", "horizontal.go:Table.compactCalcH", "vertical.go:Table.compactCalcV"]}
{"id": "C73", "title": "StringWidth adds up the widths of the user-perceived characters", "statement": "A text can be cut in exactly one way into pieces at the UAX #29 boundaries, and StringWidth is the sum over these pieces of the width of the first code point in the piece that has a non-zero width, or 0 if none has.", "quantifier": "every byte string, every combination of the flags", "why_tests_cant": "Segmentation looks back without bound, and any combination of code points may form a piece.", "anchors": ["runewidth/runewidth.go:Condition.StringWidth", "runewidth/runewidth.go:StringWidth", "runewidth/uniseg/grapheme.go:Graphemes.Next"]}
{"id": "C74", "title": "The generated property file declares exactly the table of the data", "statement": "The source text the property generator writes, read by the lexical rules of Go, declares one table under the given name, with one row for every data line of the files read, in ascending order, made of the bounds and the property of that line (and the general category if asked for); nothing in the comments of the data files can add, hide or change a row.", "quantifier": "every command line whose table name is a word and whose file name has no line end, every content of the data files, every outcome of the unstable sort", "why_tests_cant": "Arbitrary comment texts and files of any length; the text is written piece by piece.", "anchors": ["runewidth/uniseg/gen_properties.go:parse", "runewidth/uniseg/gen_properties.go:translateProperty"]}
{"id": "C75", "title": "Flags and outcomes of the property generator", "statement": "Flags are separated by commas and take the value after the first =, or yes; the last of several with one name counts. A run ends with a complaint if there are fewer than four arguments, if there is nothing to read, or if a data line is malformed, with a panic exactly if the general category is asked for and a comment has fewer than three bytes, and otherwise with a source text.", "quantifier": "every list of arguments, every content of the data files", "why_tests_cant": "All argument strings and all files.", "anchors": ["runewidth/uniseg/gen_properties.go:main", "runewidth/uniseg/gen_properties.go:parse"]}
{"id": "C76", "title": "Which calls a merge makes without compaction", "statement": "With a list and a writer that may answer every call as they like: a merge without compaction asks for the length once, then, line by line, for each item of the line once and in order, and writes the line made from the rows just given, in one call. It stops early only, and always, at the first write that fails or the first row with fewer cells than there are columns. A list that claims a length of 0 or less gets no line or one blank line. All conversations of this kind are possible.", "quantifier": "every table, width argument, separator, every behaviour of list and writer (stateful, inconsistent, negative length)", "why_tests_cant": "The list is arbitrary user code; tests use lists that never change.", "anchors": ["horizontal.go:Table.MergeRowsHorizontal", "vertical.go:Table.MergeRowsVertical", "table_iface.go:FormattedItemList"]}
{"id": "C77", "title": "Which calls a merge makes with compaction", "statement": "With any list and writer: each round of the compact search asks for the length and then, for each group and each column, for every item of the group from top to bottom. The search stops at the first number of groups that is given up or too wide, the printing uses the last number of groups that fitted, with the widths measured then, and asks for the length and the rows again. The search writes nothing; it panics only, and always, at the first row without the cell asked for or, column by column, at certain negative lengths. All conversations of this kind are possible, and no others.", "quantifier": "every table, width argument, separator, every behaviour of list and writer", "why_tests_cant": "Answers may differ from call to call, and the number of rounds is unbounded.", "anchors": ["horizontal.go:Table.compactCalcH", "horizontal.go:Table.mergedRowsWidthH", "vertical.go:Table.compactCalcV", "vertical.go:Table.mergedRowsWidthV"]}
{"id": "C78", "title": "Merges never ask for an item out of range", "statement": "Whatever lengths the list claims, and however often it changes its mind, every index a merge passes to Get is at least 0 and less than the length given last. A merge that divides by zero for lack of width does so before any call.", "quantifier": "every table, width argument, separator, compaction setting, every behaviour of list and writer", "why_tests_cant": "Index arithmetic over all lengths, including negative ones, and all group counts.", "anchors": ["horizontal.go:Table.MergeRowsHorizontal", "vertical.go:Table.MergeRowsVertical", "horizontal.go:Table.mergedRowsWidthH", "vertical.go:Table.mergedRowsWidthV"]}
{"id": "C79", "title": "With a list that does not change, only its contents matter", "statement": "If the list gives the same answers throughout, what a merge writes and how it ends depends only on these answers and on which writes fail, and is what the claims about fixed lists say; a conversation with every fixed list and writer exists.", "quantifier": "every table, fixed list, writer, width argument, separator, compaction setting", "why_tests_cant": "Relates two independent descriptions of the merges for all inputs.", "anchors": ["horizontal.go:Table.MergeRowsHorizontal", "vertical.go:Table.MergeRowsVertical"]}
{"id": "C80", "title": "What FormatItem does while getters change the table", "statement": "Getters may add, remove, replace, rename or clear columns of the very table, exchange their getters, overwrite the whole table, or change the width settings, while FormatItem calls them, fail, or panic. FormatItem still goes through the slice of columns the table had when it was called: for each position in turn it asks the column standing there at that time for a value and then for a text, using the getter the column has at the time of each call, and records the width, as measured then, under the name the column has afterwards, in the width map the table had when it was called. It stops at the first error or panic. A returned row has one cell per column at the time of the call, the cells being the replies of Format in order. Each of the three methods that call user code always ends, in one way only.", "quantifier": "every memory state, every behaviour of getters and alignments that ends (including stateful, failing, panicking, and changing any exported field)", "why_tests_cant": "The getters are arbitrary user code that rewrites what the loop is reading; tests use getters that leave the table alone.", "anchors": ["table.go:Table.FormatItem", "table.go:Column", "table.go:TableSpec"]}
{"id": "C81", "title": "Widths only grow, however calls are nested", "statement": "Whatever user code does, including calls of UpdateWidth, FormatItem, FormatItemBasic, AlignFormattedItem and both merges on any table from within getters, alignments, lists and writers, assignments of whole tables, to any depth, and whether calls return, fail or panic: no width recorded in any width map ever becomes smaller, so none of a table that still has its map (that was not overwritten by another table). After FormatItem has returned a row, each cell, as measured when its Format returned, is at most as wide as the width recorded for the name its column had when its Format returned, in the map the table had when it was called.", "quantifier": "every memory state, every nesting of calls, every behaviour of user code", "why_tests_cant": "Nesting of unbounded depth.", "anchors": ["table.go:Table.FormatItem", "table.go:Table.UpdateWidth", "table.go:Table.FormatItemBasic", "table.go:Table.AlignFormattedItem"]}
{"id": "C82", "title": "Getters that leave the table alone", "statement": "With getters that have a state of their own but leave tables, specs, columns and width settings as they are, FormatItem on objects in memory ends as it does for a table given as a value, with the same widths, and changes nothing but the widths in the map of its own table.", "quantifier": "every memory state whose columns have getters, every getter with a state of its own, every item", "why_tests_cant": "Relates two independent descriptions of FormatItem for all inputs.", "anchors": ["table.go:Table.FormatItem"]}
{"id": "C83", "title": "What FormatItemBasic does while getters change the table", "statement": "With getters that may change the table: FormatItemBasic calls ValueString once for each position of the slice of columns the table had when it was called, with the column standing there when it is its turn and the name it has then, and stops at the first error or panic; otherwise it returns the replies with the separator between them.", "quantifier": "every memory state, separator, every behaviour of getters", "why_tests_cant": "The getters are arbitrary user code that rewrites what the loop is reading.", "anchors": ["table.go:Table.FormatItemBasic"]}
{"id": "C84", "title": "What AlignFormattedItem does while alignments change the table", "statement": "With alignment functions that may change the table and the row: a row of the wrong length is turned down before any call. Otherwise, for each position of the slice of columns the table had when it was called, the alignment of the column standing there when it is its turn, if there is one, gets the text in the row and the width on record at that time, and its reply is written to the row; the result is the same slice.", "quantifier": "every memory state, row, every behaviour of alignment functions", "why_tests_cant": "The alignments are arbitrary user code that rewrites what the loop is reading.", "anchors": ["table.go:Table.AlignFormattedItem", "table.go:Table.Width"]}
{"id": "C85", "title": "What merges do while list, writer and alignments change the table", "statement": "The list, the writer and the alignments may change the table a merge is printing: its columns, their names and alignments, recorded widths, rows handed over before, and the width settings. How many columns a line has room for and the first number of groups are settled when the merge is called. An item then gets one cell for each column the table has when its row has been handed over; each cell is made from the text standing in the row, the alignment of the column standing at that position, the width on record, and how wide the text is measured, at the time the cell is made (with compaction: the column width found in the search, from texts each measured when its row was handed over). With fewer columns than in the beginning the other cells stay empty; with more, the merge panics at the first extra cell, once its alignment has returned. These runs, and no others, are possible; with given user code there is exactly one.", "quantifier": "every memory state, width argument, separator, compaction setting, every behaviour of list, writer and alignments", "why_tests_cant": "List, writer and alignments are arbitrary user code that rewrites what the loops are reading.", "anchors": ["horizontal.go:Table.MergeRowsHorizontal", "vertical.go:Table.MergeRowsVertical", "horizontal.go:Table.compactCalcH", "vertical.go:Table.compactCalcV"]}
{"id": "C86", "title": "Merges change nothing themselves", "statement": "A merge never writes to a table, a spec, a column, a recorded width or a row. Whatever user code does, each of its calls finds memory as the previous call left it, and after the merge memory is as the last call left it.", "quantifier": "every memory state, width argument, separator, compaction setting, every behaviour of list, writer and alignments", "why_tests_cant": "Quantifies over everything in memory and all interleavings with user code.", "anchors": ["horizontal.go:Table.MergeRowsHorizontal", "vertical.go:Table.MergeRowsVertical", "table.go:Table.TableWidth"]}
{"id": "C87", "title": "Merges with user code that leaves the table alone", "statement": "If list, writer and alignments leave memory and width settings as they are, a merge makes the calls and ends as described for tables given as values, and if the list always gives the same answers, as described for fixed lists.", "quantifier": "every memory state whose columns are not nil, every list, every writer, every alignment that is a function of its arguments", "why_tests_cant": "Relates two independent descriptions of the merges for all inputs.", "anchors": ["horizontal.go:Table.MergeRowsHorizontal", "vertical.go:Table.MergeRowsVertical"]}
{"id": "C88", "title": "Trouble ends a merge at once", "statement": "If the list, the writer or an alignment panics, or the writer returns an error, the merge calls no user code any more and panics: with the panic of the user code, or with the error. It panics in these ways only after such a call.", "quantifier": "every memory state, width argument, separator, compaction setting, every behaviour of user code, trouble at any call", "why_tests_cant": "Trouble at any of unboundedly many calls.", "anchors": ["horizontal.go:Table.MergeRowsHorizontal", "vertical.go:Table.MergeRowsVertical"]}
{"id": "C89", "title": "Merges do not crash by themselves while the columns stay", "statement": "As long as the table keeps its slice of columns, with no nil in it, and every row handed over has a cell for each column, a merge never panics with an index out of range or a nil pointer, even if user code exchanges columns, renames them, or changes alignments, recorded widths and rows between its calls. Whatever user code does, a merge asks only for items from 0 up to the length given last.", "quantifier": "every memory state, width argument, separator, compaction setting, every behaviour of user code within these limits", "why_tests_cant": "All interleavings of changes with the loops of the merge.", "anchors": ["horizontal.go:Table.MergeRowsHorizontal", "vertical.go:Table.MergeRowsVertical", "horizontal.go:Table.mergedRowsWidthH", "vertical.go:Table.mergedRowsWidthV"]}
{"id": "C90", "title": "Every item exactly once, whatever user code does", "statement": "If a merge without compaction returns, it has asked for the length once, for each item below that length exactly once (row by row: in order), and has made one write for each line of a listing with as many groups as the table had room for in the beginning; whatever list, writer and alignments did to the table in between.", "quantifier": "every memory state, width argument, separator, every behaviour of user code", "why_tests_cant": "All list lengths, and all changes of the table during the merge.", "anchors": ["horizontal.go:Table.MergeRowsHorizontal", "vertical.go:Table.MergeRowsVertical"]}
{"id": "C91", "title": "Which merges are sure to end", "statement": "Merges without compaction always end, whatever list, writer and alignments do, as long as each of their calls does. With compaction, a merge column by column ends if the lengths the list gives stay between -N and N for some N: after at most N rounds of its search (one if N is 0), however the list changes its length, rows, columns and widths in between.", "quantifier": "every memory state, width argument, separator, every behaviour of user code, every N", "why_tests_cant": "Termination for all behaviours of user code.", "anchors": ["horizontal.go:Table.MergeRowsHorizontal", "vertical.go:Table.MergeRowsVertical", "vertical.go:Table.compactCalcV"]}
{"id": "C92", "title": "Merges do not overflow the integers of the machine", "statement": "On a platform whose int has w bits, with w = 32, w = 64 or any other w >= 32, a merge makes the same calls and ends in the same way as with unbounded integers, as long as the lengths the list gives are between -2^(w-2) and 2^(w-2), its search, if any, takes fewer than 2^(w-3) rounds, and that number of rounds plus 65535, times the number of columns, is below 2^(w-1). In particular all that is claimed for fixed lists holds there. Some limit is needed: a list that claims the length -2^(w-1) gets blank lines, where none are due (shown for w = 64 and w = 32).", "quantifier": "every word size of at least 32 bits, every table, width argument, separator, compaction setting, every behaviour of list and writer within these limits", "why_tests_cant": "Lists this long cannot be built in a test.", "anchors": ["horizontal.go:Table.MergeRowsHorizontal", "vertical.go:Table.MergeRowsVertical", "horizontal.go:Table.compactCalcH", "vertical.go:Table.compactCalcV", "horizontal.go:Table.mergedRowsWidthH", "vertical.go:Table.mergedRowsWidthV"]}
{"id": "C93", "title": "From downloads to the runewidth tables", "statement": "If EastAsianWidth.txt and emoji-data.txt are read to their ends and their data is in order, script/generate.go hands to gofmt Go source of package runewidth that declares the tables combining, doublewidth, ambiguous, narrow, neutral and emoji, in this order, once each, and nothing else; looking up a code point in one of them, if it is not empty, succeeds exactly if the files list it for that table (for emoji: in a range after the marker that does not end below U+00FF).", "quantifier": "every content of the two files, given as bytes, with lines of less than 65536 bytes and data in order", "why_tests_cant": "The generator is run once per Unicode version, on files that change.", "anchors": ["runewidth/script/generate.go:main", "runewidth/script/generate.go:eastasian", "runewidth/script/generate.go:emoji", "runewidth/script/generate.go:generate", "runewidth/script/generate.go:shapeup"]}
{"id": "C94", "title": "Broken downloads shorten the runewidth tables silently", "statement": "If the connection breaks while script/generate.go reads the width file, or the file has a line of 65536 bytes or more (but for a last one of exactly 65536 bytes without line end, if the connection reports its end together with the last bytes), it writes what it would write if the file ended before that line, without an error; the same for the emoji file after its marker (unless the failure was known when the marker was read). Trouble before the marker gives a source without the table emoji. Whatever the downloads contain, the text is the source of the first five tables or of all six, or it has a negative number and is not Go. There is none only if a file cannot be fetched.", "quantifier": "every content of the two files, given as bytes, every place where reading fails", "why_tests_cant": "All places a download may break.", "anchors": ["runewidth/script/generate.go:main", "runewidth/script/generate.go:eastasian", "runewidth/script/generate.go:emoji"]}
{"id": "C95", "title": "Broken downloads stop the generator of the property tables", "statement": "If a file the command line asks for cannot be fetched, breaks off, or has a line of 65536 bytes or more (with the same exception), gen_properties.go reports an error and prints nothing. If all of them are read to their ends it ends as described for files given by their lines.", "quantifier": "every command line, every content of the files, given as bytes, every place where reading fails", "why_tests_cant": "All places a download may break.", "anchors": ["runewidth/uniseg/gen_properties.go:parse", "runewidth/uniseg/gen_properties.go:main"]}
{"id": "C96", "title": "Copies of a table share their recorded widths", "statement": "After *t = *src both tables record widths in one map: each cell of a row that FormatItem of t returns, as measured when it was formatted, is at most as wide as what src has recorded for the name of its column, whatever the getters do (short of overwriting src). FormatItem records widths in no other map than the one its table had when it was called: tables with other maps have the widths they had, unless user code records some. In particular a table that a getter overwrites with a new one while it formats an item has no widths for the row it returned.", "quantifier": "every memory state, item, every behaviour of getters, every sharing of width maps", "why_tests_cant": "Every way tables can share specs and maps, and user code that changes it at any call.", "anchors": ["table.go:Table", "table.go:Table.FormatItem", "table.go:New"]}
{"id": "C97", "title": "User code that changes the width settings", "statement": "Suppose user code called by FormatItem or by a merge switches between some width settings, and the cache holds widths measured under them only. Then every width measured is the right one under one of these settings, and for a text that has the same width under all of them (any ASCII text, escape sequences included; any text whose characters do) it is the right one. If user code does nothing else to the table and all texts are of this kind, FormatItem and the merges do exactly what they do under any one of the settings throughout. Whatever getters do to the table, each cell of this kind that FormatItem returns fits under all of the settings into what is recorded for its column. A text of another kind may not: of two cells with the same text, formatted before and after a change, only the second fits.", "quantifier": "every set of settings, every cache content and eviction, every memory state, every behaviour of user code within these limits", "why_tests_cant": "Settings and cache are global state that user code may change between any two calls.", "anchors": ["width.go:visualWidth", "runewidth/runewidth.go:DefaultCondition", "table.go:Table.FormatItem", "horizontal.go:Table.MergeRowsHorizontal", "vertical.go:Table.MergeRowsVertical"]}
{"id": "C98", "title": "What compaction costs", "statement": "If the list always gives the same length n > 0 (its rows may change) and a compact merge returns, having found k more groups than there was room for at first, then it has called Len k + 2 times and written one line for each line of the listing with that many groups. Row by row it has called Get exactly (k + 1) * columns + 1 times for each item from 0 to n - 1. Column by column it has called Get k * columns + 1 times for each item if k + 1 more groups would leave one of them empty, else as often as row by row; and if k is not 0, there are no more groups than items. With a fixed list, a search row by row that ends tries at most 65536 more numbers of groups than the larger of n and the number of groups at first, less the latter.", "quantifier": "every table, width argument, separator, every list of constant length, every writer", "why_tests_cant": "The number of calls depends on the number of rounds, which is unbounded, and every item and column adds to it.", "anchors": ["horizontal.go:Table.MergeRowsHorizontal", "horizontal.go:Table.compactCalcH", "horizontal.go:Table.mergedRowsWidthH", "vertical.go:Table.MergeRowsVertical", "vertical.go:Table.compactCalcV", "vertical.go:Table.mergedRowsWidthV"]}
{"id": "C99", "title": "Negative numbers in the data of the width tables", "statement": "script/generate.go reads numbers with a minus sign and prints the sign after 0x, followed by three digits or more (more only if the first is not 0), which is no Go literal: gofmt refuses the text and nothing is written. If the ranges a file lists are in order within themselves and end below 2^31 - 1, one line with a negative bound that belongs to some table is enough for that, in the width file or after the marker of the emoji file. If no bound is negative, the text declares the six tables. Without that condition a negative bound can be hidden: by a range before it that ends at 2^31 - 1, where runes wrap around, or by one that is inverted.", "quantifier": "every content of the two files, given as bytes, with lines of less than 65536 bytes", "why_tests_cant": "All ways to write and merge ranges, in files of any length.", "anchors": ["runewidth/script/generate.go:generate", "runewidth/script/generate.go:shapeup", "runewidth/script/generate.go:eastasian", "runewidth/script/generate.go:emoji", "runewidth/script/generate.go:main"]}
{"id": "C100", "title": "Plain text is measured character by character", "statement": "If no character of a text joins another (all are ordinary characters, emoji or Hangul syllables), StringWidth is the sum of the widths of its characters, and aligning it to a width w gives a text exactly as wide as the larger of w and its own width. In a text of printable ASCII, CJK punctuation, kana, ideographs, Hangul syllables, full-width forms, basic Greek and Cyrillic letters and box drawing lines each ASCII character counts 1, each CJK character 2, and each of the others 2 if EastAsianWidth is set, else 1, whatever the other setting. Controls, the soft hyphen, combining diacritical marks, zero-width spaces and joiners count 0.", "quantifier": "every text of such characters, every width setting, every width asked for", "why_tests_cant": "There are more than 100000 characters of this kind and texts of any length.", "anchors": ["runewidth/runewidth.go:Condition.StringWidth", "runewidth/runewidth.go:Condition.RuneWidth", "runewidth/runewidth_table.go:doublewidth", "runewidth/runewidth_table.go:ambiguous", "alignment.go:AlignmentLeft", "alignment.go:AlignmentRight", "alignment.go:AlignmentCenter"]}
{"id": "C101", "title": "Accents, flags and emoji are counted by their first code point", "statement": "In a text made of characters with marks (accents, vowel signs, variation selectors, skin tones, keycaps), flags (two regional indicators, marks allowed) and emoji joined by U+200D, in any order and number, StringWidth counts for each of them the width of its first code point that has one, so for joined emoji, however many, that of the first, 1 or 2. Any number of flags in a row count 1 each under all settings. A flag, an emoji with the emoji variation selector and a keycap therefore count 1, although StepString of package uniseg reports 2 for them.", "quantifier": "every such text, every width setting", "why_tests_cant": "There is no limit to the number of marks, of joined emoji and of characters in a row, and what stands before a regional indicator decides how it pairs up.", "anchors": ["runewidth/runewidth.go:Condition.StringWidth", "runewidth/uniseg/grapheme.go:Graphemes.Next", "runewidth/uniseg/graphemerules.go:transitionGraphemeState", "runewidth/uniseg/step.go:StepString"]}
{"id": "C102", "title": "By which settings a condition measures", "statement": "Whatever a program does with conditions (literals, NewCondition, copies, assignments to their fields, to the package variables and to DefaultCondition, both functions CreateLUT), RuneWidth and StringWidth never index outside a lookup table and give the widths for the settings the table of the condition was last filled for, or for its own settings if it has no table. Copies share the table of the original: c.CreateLUT() makes c and all conditions that share its table measure by the settings of c, whatever theirs are, and affects no other. The package-level CreateLUT changes no width and never refreshes a table: after it, new settings for the default condition have no effect, even if it is called again. The package variables matter only to conditions made later.", "quantifier": "every sequence of such calls on any number of conditions, every rune, every text", "why_tests_cant": "Sharing of tables depends on the whole history of copies and calls.", "anchors": ["runewidth/runewidth.go:Condition.CreateLUT", "runewidth/runewidth.go:CreateLUT", "runewidth/runewidth.go:NewCondition", "runewidth/runewidth.go:Condition.RuneWidth", "runewidth/runewidth.go:Condition.StringWidth", "runewidth/runewidth.go:StringWidth", "runewidth/runewidth.go:DefaultCondition"]}
{"id": "C103", "title": "RuneWidth follows the East Asian widths of Unicode 14 but for 54 characters", "statement": "Of the characters to which RuneWidth does not give 0, it gives 2 without the East Asian flag exactly to those that the East Asian Width table of package uniseg calls wide or fullwidth, except 54 kana and emoji that are new in Unicode 14: they get 1. With the flag the characters that table calls ambiguous get 2 as well and, if StrictEmojiNeutral is off, the pictographs of the grapheme table other than the copyright and registered signs. RuneWidth gives 0 only to characters that the grapheme table classes as Control, CR, LF, Extend or ZWJ, and to surrogates and five more code points: 2608 in all. It gives 2 to 182438 code points without the flag, to 321064 with it, and to 323388 with it if StrictEmojiNeutral is off.", "quantifier": "every code point, every width setting", "why_tests_cant": "Two sets of tables made at different times from different versions of the data, with 3000 rows each.", "anchors": ["runewidth/runewidth.go:Condition.RuneWidth", "runewidth/runewidth_table.go:doublewidth", "runewidth/runewidth_table.go:ambiguous", "runewidth/runewidth_table.go:combining", "runewidth/runewidth_table.go:emoji", "runewidth/runewidth_table.go:narrow", "runewidth/uniseg/eastasianwidth.go:eastAsianWidth", "runewidth/uniseg/graphemeproperties.go:graphemeCodePoints"]}
{"id": "C104", "title": "Where StringWidth and StepString differ on single characters", "statement": "For a text of one character StringWidth is RuneWidth of it. Without the East Asian flag that is also the width StepString reports, with these exceptions and no others: characters of the classes Control, CR, LF, Extend and ZWJ have no width in StepString, but 5429 of these 5984 have one in StringWidth, namely 1, or, for exactly twelve tone marks, fillers and skin tones, 2; the two dashes U+2E3A and U+2E3B (1 against 3 and 4), regional indicators (1 against 2), 12 wide pictographs without emoji presentation (2 against 1), the 54 characters new in Unicode 14 (1 against 2), and five code points (0 against 1).", "quantifier": "every text of one character, valid or not", "why_tests_cant": "All code points, looked up in five tables on one side and three on the other.", "anchors": ["runewidth/runewidth.go:Condition.StringWidth", "runewidth/runewidth.go:Condition.RuneWidth", "runewidth/uniseg/step.go:StepString", "runewidth/uniseg/width.go:runeWidth", "runewidth/uniseg/eastasianwidth.go:eastAsianWidth", "runewidth/uniseg/emojipresentation.go:emojiPresentation"]}
{"id": "C105", "title": "The widths of StepString, added up over a text, against StringWidth", "statement": "Calling StepString first with -1 and then always on the rest and with the state of the call before ends, and its clusters make up the text, cut exactly at the boundaries of UAX #29. For a text of characters with marks, flags and joined emoji the reported widths add up to those of these units. Compared with StringWidth without the East Asian flag: for characters with or without accents the sums differ by exactly what the characters named in C104 among them are wider or narrower, so for plain text without these the two agree; for a row of flags, under all settings, the sum is twice StringWidth; joined emoji, or one with a skin tone or selector, add up to 2, or to 1 if the text selector U+FE0E comes last, where StringWidth gives the width of the first of them.", "quantifier": "every text (first part), every text made of such units (the others)", "why_tests_cant": "Texts of any length, each character with any number of marks, and state passed from call to call.", "anchors": ["runewidth/uniseg/step.go:StepString", "runewidth/uniseg/width.go:runeWidth", "runewidth/uniseg/graphemerules.go:transitionGraphemeState", "runewidth/runewidth.go:Condition.StringWidth"]}
{"id": "C106", "title": "Composed and decomposed spelling give the same width without the East Asian flag", "statement": "Replacing characters of a text by their canonical decompositions (é by e and a combining accent, a Hangul syllable by its letters), any of them, the others kept, leaves its grapheme clusters in place, one for one, and without the East Asian flag does not change StringWidth, nor the width columns are laid out by if there are no escape sequences. Two texts that agree when everything is decomposed have the same width. Nine characters (U+21AE and eight vowel signs) are excepted if the text contains the joiner U+200D: between two emoji and before a joiner they do change the width, under all settings. With the flag exactly 341 characters change their width when decomposed: 309, most of them accented Greek and Cyrillic letters, from 1 to 2, and 32, accented Latin letters such as é and a few signs, from 2 to 1; if these are kept, the width stays the same.", "quantifier": "every text and every choice of characters to be decomposed, every width setting", "why_tests_cant": "There are 13233 characters with a decomposition, in texts of any length and in any context.", "anchors": ["runewidth/runewidth.go:Condition.StringWidth", "runewidth/runewidth.go:Condition.RuneWidth", "runewidth/uniseg/grapheme.go:Graphemes.Next", "runewidth/uniseg/graphemerules.go:transitionGraphemeState", "runewidth/uniseg/graphemeproperties.go:graphemeCodePoints", "runewidth/runewidth_table.go:ambiguous", "width.go:visualWidth"]}
{"id": "C107", "title": "Canonically equivalent texts have the same width", "statement": "The order of neighbouring combining characters (those with a nonzero Canonical_Combining_Class in Unicode 14) decides nothing about grapheme clusters: texts that differ in it alone have the same clusters, one for one and each reordered. Their widths are the same under all settings if none of eight characters occurs (the tone and reading marks U+302A to U+302F, U+16FF0 and U+16FF1, which alone take two cells), or if every cluster begins with a character that takes cells and is not combining; at the start of a text each of the eight changes the width when it is exchanged with a vowel point. So without the East Asian flag two canonically equivalent texts (their full decompositions agree up to that order) have the same width if they contain none of the eight and none of the nine characters named in C106, these only where the text contains U+200D.", "quantifier": "every text and every reordering of its combining characters, every width setting (without the flag for canonical equivalence)", "why_tests_cant": "912 combining characters in sequences of any length and order, on any character.", "anchors": ["runewidth/runewidth.go:Condition.StringWidth", "runewidth/runewidth.go:Condition.RuneWidth", "runewidth/uniseg/grapheme.go:Graphemes.Next", "runewidth/uniseg/graphemerules.go:transitionGraphemeState", "runewidth/uniseg/graphemeproperties.go:graphemeCodePoints", "runewidth/runewidth_table.go:combining", "runewidth/runewidth_table.go:doublewidth"]}
{"id": "C108", "title": "The layout of merged output depends only on how wide the cells are", "statement": "Replace the cells of the items passed to MergeRowsHorizontal or MergeRowsVertical by others of the same visual width (other colours, another spelling of accented letters, other letters): the group count, in compact mode too, the number of lines and the order of the cells, every separator and, with the alignments of the package, every run of spaces stay the same, and the call panics or fails in the same way. The new output is the old one with the cells exchanged. Cells that differ in their colour sequences only, or (without the East Asian flag) are canonically equivalent, are equally wide.", "quantifier": "all tables, all pairs of item lists whose cells have pairwise the same visual width, all maxWidth values and separators, both compact settings, all points at which the writer may panic; for the spaces: columns without alignment or with AlignmentLeft, AlignmentRight or AlignmentCenter; a horizontal compact search that does not end for one does not end for the other", "why_tests_cant": "A test prints one list of items; that bytes of a cell other than through their width (its length, a counted escape byte) never reach the layout is a statement about pairs of runs over all lists.", "anchors": ["horizontal.go:Table.MergeRowsHorizontal", "vertical.go:Table.MergeRowsVertical", "width.go:visualWidth", "alignment.go:AlignmentLeft"]}
{"id": "C109", "title": "Which calls may run at the same time on one table", "statement": "Goroutines may share a table, without locks, as long as none of their calls would, alone, change a recorded width: Width, TableWidth, FormatHeader, AlignFormattedItem (on rows of their own) and both merges never do, FormatItem and UpdateWidth do exactly if a text or entry is wider than what is recorded. Then there is no data race on the widths, they stay as they are, and every call returns what it would return alone. Otherwise, as soon as another goroutine uses the widths at all, a race is possible: this is exact. Even if single accesses to the map were atomic, widths could get lost: of two goroutines that record larger widths for one column the one with the smaller width can write last, so that the recorded width ends below that of a text already formatted.", "quantifier": "any number of goroutines, every sequence of calls each of them makes, every interleaving of their accesses to the widths, every table; assuming that the columns are not changed meanwhile and user code does not use the table (the width cache is the subject of C70)", "why_tests_cant": "Races depend on the scheduling: a test sees some interleavings, and the race detector only those that occur.", "anchors": ["table.go:Table.FormatItem", "table.go:Table.UpdateWidth", "table.go:Table.Width", "table.go:Table.TableWidth", "table.go:Table.FormatHeader", "table.go:Table.AlignFormattedItem", "horizontal.go:Table.MergeRowsHorizontal", "vertical.go:Table.MergeRowsVertical"]}
{"id": "C110", "title": "From items to printed lines, everything but the texts depends only on how wide the cells are", "statement": "Take a table, call FormatItem on one list of items and, on another copy of that table, on another list, possibly with the getters in another state (colours on or off). If no call fails and the cells returned are pairwise equally wide, the two tables end with the same recorded widths, so Width, TableWidth and FormatHeader answer the same, and merging the rows of either run, horizontally or vertically, compact or not, gives the same lines with the same places for cells, filled in with the cells of that run, or the same panic.", "quantifier": "all tables, whatever they have recorded before, all getters with any state, all pairs of lists of items whose cells have pairwise the same visual width, all maxWidth values and separators, all points at which the writer may panic", "why_tests_cant": "It relates two whole sessions, over lists of any length and getters that may do anything; a test compares a few outputs.", "anchors": ["table.go:Table.FormatItem", "table.go:Table.FormatHeader", "table.go:Table.Width", "table.go:Table.TableWidth", "horizontal.go:Table.MergeRowsHorizontal", "vertical.go:Table.MergeRowsVertical", "width.go:visualWidth"]}
