#!/usr/bin/env python3
"""Write DESIGN.md from tools/DESIGN.in.md, the property list, the manifest and the axioms of the built theorems."""
import json, os, subprocess
root = os.path.dirname(os.path.dirname(os.path.abspath(__file__)))
M={c['property']:c for c in json.load(open(root+'/MANIFEST.json'))['claims']}
P=[json.loads(l) for l in open(root+'/properties.jsonl')]
HOW={
'C01':('StepString, Graphemes, transition table, property search','invariant "parser state = function of the prefix read", refined to the rules of UAX #29 written as a specification'),
'C02':('Graphemes iterator','induction on what remains of the text'),
'C03':('StepString, packed state','bit lemma for the packing; refinement to rune-level segmentation'),
'C04':('inTable, inTables, propertySearch, all tables','loop invariant of binary search for every sorted table; that the shipped tables are sorted is evaluated by the kernel over the whole tables'),
'C05':('RuneWidth','C04, plus disjointness of intervals'),
'C06':('CreateLUT, RuneWidth with table','nibble arithmetic; invariant over histories of a Condition'),
'C07':('handleEnv, package CreateLUT, DefaultCondition','invariant over histories'),
'C08':('RuneWidth, StringWidth','C05, disjointness, lifted through clusters'),
'C09':('StringWidth','sizes of decoded runes, lower bounds of the wide tables'),
'C10':('StringWidth','segmentation lemmas for ASCII'),
'C11':('visualWidth with cache','invariant "every entry is a true width" over histories with adversarial eviction'),
'C12':('visualWidth, two atomic steps per goroutine','the same invariant over all interleavings'),
'C13':('ansiEscapeRE, countMatchesLength, visualWidth','lemmas on the regexp matcher'),
'C14':('ansiEscapeRE, visualWidth','matcher lemmas; each matched byte after the introducer is a cluster of width 1'),
'C15':('countMatchesLength, visualWidth','as C14, for any text'),
'C16':('AlignmentLeft','additivity of the width under spaces'),
'C17':('AlignmentRight','as C16'),
'C18':('AlignmentCenter','as C16'),
'C19':('all alignments','C16-C18'),
'C20':('FormatItem, UpdateWidth, store of specs and tables','invariant over logs of calls'),
'C21':('FormatItem','induction over columns'),
'C22':('UpdateWidth over every order of a map','induction; maximum is commutative'),
'C23':('NewTable, AddColumn, store of specs and tables','invariant over logs of calls'),
'C24':('AddColumn, ColumnByName','invariant over logs of calls'),
'C25':('FormatItemBasic','induction over columns'),
'C26':('AlignFormattedItem on a slice in memory','induction over columns'),
'C27':('FormatItem + AlignFormattedItem','C16-C20'),
'C28':('padColumnHeader, FormatHeader','C09, C18'),
'C29':('TableWidth','arithmetic modulo 2^16'),
'C30':('MergeRowsHorizontal','index arithmetic; lines and groups'),
'C31':('MergeRowsVertical','index arithmetic'),
'C32':('both merges without compaction','additivity of widths, arithmetic modulo 2^16'),
'C33':('both merges with compaction','as C32'),
'C34':('both merges','as C32, for every prefix of a line'),
'C35':('compactCalcH, compactCalcV','invariant of the search'),
'C36':('compactCalcV','termination measure'),
'C37':('compactCalcH with fuel','"never ends" is "no amount of fuel is enough", by induction on fuel'),
'C38':('both merges with panics','case analysis on every index and division'),
'C39':('both merges with a failing writer','induction over lines'),
'C40':('conversion of the width argument','modular arithmetic, monotonicity of division'),
'C41':('isEastAsian, reLoc','matcher lemmas; strings.ToLower is a parameter that is ASCII lower-casing on ASCII'),
'C42':('isEastAsian, mblenTable','case analysis'),
'C43':('IsEastAsian, handleEnv','case analysis'),
'C44':('generate.go shapeup','induction; canonical form'),
'C45':('graphemeCodePoints','kernel evaluation over the whole table plus a lemma on multiples of 28'),
'C46':('StepString, uniseg runeWidth','loop invariant of StepString'),
'C47':('UTF-8 decoder','case analysis on encodings, induction'),
'C48':('StringWidth','simulation between two segmentations'),
'C49':('both merges','both runs read the same things'),
'C50':('runewidth_windows.go, runewidth_posix.go','evaluation of both on every code page'),
'C51':('FindAllString on ansiEscapeRE','uniqueness of the cut into escapes and text'),
'C52':('visualWidth','segmentation across escapes'),
'C53':('visualWidth against a stripped text','C52'),
'C54':('StringWidth, visualWidth','control characters end every cluster'),
'C55':('StringWidth','simulation as in C48'),
'C56':('FormatItem then a merge','composition of C20, C21 and C30-C34'),
'C57':('AlignFormattedItem then a merge','C19, C26, C30, C31'),
'C58':('nil alignments','case analysis'),
'C59':('FormatHeader and AlignFormattedItem','additivity of widths'),
'C60':('both merges','C30, C31, C35'),
'C61':('AddColumn on literals with nil maps','case analysis'),
'C62':('Table literals with nil maps','refinement to the ordinary table'),
'C63':('gen_properties.go parseProperty','matcher lemmas'),
'C64':('gen_properties.go parse, sorting; propertySearch','any permutation a sort may give; C04'),
'C65':('generate.go eastasian, emoji; fmt.Sscanf','scanner lemmas'),
'C66':('generate.go eastasian; inTable','C44, C65, C04'),
'C67':('generate.go emoji; inTable','C44, C65, C04'),
'C68':('generate.go generate','printing and reading back'),
'C69':('every exported function as a program that asks for widths','simulation between cached and uncached runs'),
'C70':('goroutines running such programs','invariant over all interleavings'),
'C71':('visualWidth with changing settings','invariant over histories'),
'C72':('both merges','uniqueness from the specification alone; C30, C31, C37, C38'),
'C73':('StringWidth','uniqueness of the pieces; C01'),
'C74':('gen_properties.go parse, main','lexical analysis of the generated text'),
'C75':('gen_properties.go main, flags','case analysis'),
'C76':('both merges as conversations with list and writer','inversion of conversations, induction over lines and groups; converse: what is described leaves only answers open'),
'C77':('both merges, search included, as conversations','choice of answers through nested loops; induction over rounds; converse as for C76'),
'C78':('both merges as conversations','from C76 and C77'),
'C79':('both merges as conversations and with fixed lists','simulation of one model by the other'),
'C80':('FormatItem over objects in memory, as a conversation with its getters','induction on the columns left'),
'C81':('the three methods that call user code, nested to any depth','mutual induction on the nesting'),
'C82':('FormatItem over objects in memory and on tables as values','simulation of one model by the other'),
'C83':('FormatItemBasic over objects in memory','induction on the columns left'),
'C84':('AlignFormattedItem over objects in memory','induction on the columns left'),
'C85':('both merges over objects in memory, with all user code they call','equality of model and relation, part by part; inductions on loops'),
'C86':('both merges over objects in memory','induction on the relation of C85'),
'C87':('both merges over objects in memory and as conversations','simulation of one model by the other'),
'C88':('both merges over objects in memory','induction on the relation of C85'),
'C89':('both merges over objects in memory','induction on the relation of C85'),
'C90':('both merges over objects in memory','induction on the relation of C85, C30, C31'),
'C97':('the width cache; FormatItem and both merges over objects in memory','C71; simulation of one model by the other, for objects that differ in how texts are measured'),
'C98':('both merges, search included, as conversations','C77, counting the items of each round; for the bound C37 and C79'),
'C96':('FormatItem over objects in memory, tables that share a width map','C80 and C81; induction on the columns left'),
'C93':('`generate.go` from the bytes of the files to the source','lines (LinesOf), then C66 and C67, then a Go scanner reads the source'),
'C94':('`generate.go` with files that break off or have long lines','the scanner stops where the file is cut'),
'C99':('`generate.go` with minus signs','compaction keeps a negative bound negative; a Go scanner stops at `0x-`'),
'C100':('`StringWidth` on text without joining characters','the pieces are single characters by the rules; ranges of scripts against the tables'),
'C101':('`StringWidth` on marks, flags, joined emoji','no boundary inside such a character and one after each, by the rules, whatever precedes'),
'C102':('conditions and lookup tables as objects in memory','simulation: of a table only what it was filled for is kept'),
'C103':('the tables of packages runewidth and uniseg','tables as step functions, compared wherever one of them changes'),
'C104':('one character in `StringWidth` and in `StepString`','the same'),
'C105':('a whole text in `StepString` and in `StringWidth`','induction over the calls; pieces are unique; the tables as in C104'),
'C106':('composed and decomposed spelling','a simulation between the states on both sides, eleven states and 13 kinds of decompositions checked; the 2061 decompositions and the arithmetic of Hangul'),
'C107':('reordered combining characters, canonical equivalence','both orders lead to the same state from all eleven; 912 marks have two classes and, but for eight, at most one cell; C106'),
'C108':('lists of items with equally wide cells are related by SameWidths; both merges print one list of lines with places, filled in with either','the compact searches read widths only; alignments of the package turn a place into spaces, cell, spaces'),
'C109':('goroutines on one table: programs that read and write single entries of the width map, interleaved in any way','a goroutine that writes nothing alone sees no other widths; one that does can be run up to its first writing while another waits'),
'C110':('two runs of FormatItem over copies of a table, from different items and getter states, with equally wide cells','the recorded widths are a fold over the widths of the cells, so the tables are equal; then C108'),
'C95':('`gen_properties.go` from the bytes of the files','reading bytes = reading lines if intact; otherwise an error'),
'C92':('both merges with 32-bit and 64-bit integers','loop by loop: the same calls as with unbounded integers'),
'C91':('both merges over objects in memory, the rounds of the search','induction on the rounds'),
}
rows='\n'.join('| %s | %s | %s | %s | %s |'%(p['id'],p['title'],HOW[p['id']][0],HOW[p['id']][1],', '.join('`%s`'%t.replace('GoTable.'+p['id']+'_','') for t in M[p['id']]['theorems'])) for p in P if p['id'] in HOW)
ax=subprocess.run(['python3',root+'/tools/axioms.py'],capture_output=True,text=True,check=True).stdout.strip()
body=open(root+'/tools/DESIGN.in.md').read().replace('@@ROWS@@',rows).replace('@@AXIOMS@@',ax)
open(root+'/DESIGN.md','w').write(body)
print(len(body), [p['id'] for p in P if p['id'] not in HOW])
