#!/usr/bin/env python3
"""Writes lean/Verif/Spec/Marks.lean: the characters with a combining class in Unicode 14.

The data are those of module unicodedata of the Python library (Unicode 14.0.0, the version of the tables of package
uniseg): the code points whose Canonical_Combining_Class is not 0."""
import os
import unicodedata

assert unicodedata.unidata_version == "14.0.0"
iv = []
for r in range(0x110000):
    if unicodedata.combining(chr(r)):
        if iv and iv[-1][1] == r - 1:
            iv[-1][1] = r
        else:
            iv.append([r, r])
out = os.path.join(os.path.dirname(os.path.abspath(__file__)), "..", "lean", "Verif", "Spec", "Marks.lean")
with open(out, "w") as f:
    f.write('''/-!
# Specification: combining characters

Generated by tools/gen_marks.py from the Unicode 14 data of the Python library; not from /repo.
-/

namespace GoTable.Spec

/-- The characters of Unicode 14 whose Canonical_Combining_Class is not 0. -/
def marks : List (Nat × Nat) := [
''')
    line = "  "
    for i, (a, b) in enumerate(iv):
        x = "(0x%X, 0x%X)" % (a, b) + ("," if i + 1 < len(iv) else "]")
        if len(line) + len(x) + 1 > 118:
            f.write(line.rstrip() + "\n")
            line = "  "
        line += x + " "
    f.write(line.rstrip() + "\n\nend GoTable.Spec\n")
