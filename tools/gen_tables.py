#!/usr/bin/env python3
"""Transcribes the code-point tables of /repo into Lean list literals (lean/Verif/Model/Tables/*.lean)."""
import os, re
R = "/repo/runewidth/"
OUT = os.path.join(os.path.dirname(os.path.abspath(__file__)), "..", "lean", "Verif", "Model", "Tables")
os.makedirs(OUT, exist_ok=True)

def lines_of(path, start_pat):
    ls = open(path).read().split("\n")
    i = next(k for k, l in enumerate(ls) if re.match(start_pat, l))
    j = next(k for k in range(i, len(ls)) if ls[k].startswith("}"))
    return i + 1, j + 1, ls[i + 1:j]

def emit_chunks(f, name, ty, rows, doc):
    C = 64
    parts = [rows[k:k + C] for k in range(0, len(rows), C)]
    if len(parts) == 1:
        f.write(f"/-- {doc} -/\ndef {name} : {ty} := [\n  " + ",\n  ".join(parts[0]) + "]\n\n")
        return
    for n, part in enumerate(parts):
        f.write(f"/-- rows {n*C}..{n*C+len(part)-1} of `{name}` -/\ndef {name}_{n} : {ty} := [\n  " + ",\n  ".join(part) + "]\n\n")
    f.write(f"/-- {doc} -/\ndef {name} : {ty} :=\n  " + " ++ (".join(f"{name}_{n}" for n in range(len(parts))) + ")" * (len(parts) - 1) + "\n\n")

# runewidth tables
with open(os.path.join(OUT, "RuneWidth.lean"), "w") as f:
    f.write("/-! Generated by tools/gen_tables.py from /repo/runewidth/runewidth_table.go and runewidth.go. -/\n\nnamespace GoTable\n\n")
    f.write("/-- /repo/runewidth/runewidth.go:46-51 `type interval`, `type table`: (first, last). -/\nabbrev IntervalTable := List (Nat × Nat)\n\n")
    for file, names in (("runewidth_table.go", ["combining", "doublewidth", "ambiguous", "narrow", "neutral", "emoji"]), ("runewidth.go", ["private", "nonprint"])):
        for n in names:
            a, b, body = lines_of(R + file, rf"var {n} = table\{{")
            rows = [f"(0x{x}, 0x{y})" for x, y in re.findall(r"\{0x([0-9A-Fa-f]+), 0x([0-9A-Fa-f]+)\}", "\n".join(body))]
            ln = {"private": "privateUse"}.get(n, n)
            emit_chunks(f, ln, "IntervalTable", rows, f"/repo/runewidth/{file}:{a}-{b} `{n}`")
    f.write("end GoTable\n")

# property constants
src = open(R + "uniseg/properties.go").read().split("\n")
i = next(k for k, l in enumerate(src) if l.startswith("const ("))
j = next(k for k in range(i, len(src)) if src[k].startswith(")"))
consts = []
for idx, l in enumerate(src[i + 1:j]):
    name = l.split("//")[0].split("=")[0].strip()
    val = 0 if name == "prXX" else idx
    consts.append((name, val, i + 2 + idx))
with open(os.path.join(OUT, "Props.lean"), "w") as f:
    f.write("/-! Generated by tools/gen_tables.py from /repo/runewidth/uniseg/properties.go:5-90.\n\nNote: `prAny = iota` stands on the second line of its const block, so its value is 1, not the 0 that\nthe comment next to it asks for; the model keeps the value the Go compiler gives it. -/\n\nnamespace GoTable\n\n")
    for n, v, ln in consts:
        f.write(f"/-- /repo/runewidth/uniseg/properties.go:{ln} -/\nabbrev {n} : Nat := {v}\n")
    f.write("\nend GoTable\n")

for file, name, mod in (("graphemeproperties", "graphemeCodePoints", "Grapheme"), ("eastasianwidth", "eastAsianWidth", "EastAsian"), ("emojipresentation", "emojiPresentation", "Emoji")):
    a, b, body = lines_of(R + f"uniseg/{file}.go", rf"var {name} = ")
    rows = []
    for l in body:
        m = re.match(r"^\t\{0x([0-9A-Fa-f]+), 0x([0-9A-Fa-f]+), (\w+)\},", l)
        assert m, l
        rows.append(f"(0x{m.group(1)}, 0x{m.group(2)}, {m.group(3)})")
    with open(os.path.join(OUT, mod + ".lean"), "w") as f:
        f.write(f"import Verif.Model.Tables.Props\n/-! Generated by tools/gen_tables.py from /repo/runewidth/uniseg/{file}.go. -/\n\nnamespace GoTable\n\n")
        emit_chunks(f, name, "List (Nat × Nat × Nat)", rows, f"/repo/runewidth/uniseg/{file}.go:{a}-{b} `{name}`")
        f.write("end GoTable\n")
