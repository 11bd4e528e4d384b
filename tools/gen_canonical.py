#!/usr/bin/env python3
"""Writes lean/Verif/Spec/Canonical.lean: the canonical decompositions of Unicode 14, Hangul syllables apart.

The data are those of module unicodedata of the Python library (Unicode 14.0.0, the version of the tables of package
uniseg): NFD of every code point that is not its own NFD."""
import os
import unicodedata

assert unicodedata.unidata_version == "14.0.0"
rows = []
for r in range(0x110000):
    if 0xAC00 <= r <= 0xD7A3 or 0xD800 <= r <= 0xDFFF:
        continue
    d = unicodedata.normalize("NFD", chr(r))
    if d != chr(r):
        rows.append("(0x%X, [%s])" % (r, ", ".join("0x%X" % ord(c) for c in d)))
out = os.path.join(os.path.dirname(os.path.abspath(__file__)), "..", "lean", "Verif", "Spec", "Canonical.lean")
with open(out, "w") as f:
    f.write('''/-!
# Specification: canonical decompositions

Generated by tools/gen_canonical.py from the Unicode 14 data of the Python library; not from /repo.
-/

namespace GoTable.Spec

''')
    parts = [rows[i:i + 64] for i in range(0, len(rows), 64)]
    for k, part in enumerate(parts):
        f.write("/-- rows %d..%d of `canonical` -/\ndef canonical_%d : List (Nat × List Nat) := [\n"
                % (64 * k, 64 * k + len(part) - 1, k))
        line = "  "
        for i, x in enumerate(part):
            x += "," if i + 1 < len(part) else "]"
            if len(line) + len(x) + 1 > 118:
                f.write(line.rstrip() + "\n")
                line = "  "
            line += x + " "
        f.write(line.rstrip() + "\n\n")
    f.write("/-- Characters of Unicode 14 with their full canonical decompositions, Hangul syllables apart. -/\n"
            "def canonical : List (Nat × List Nat) :=\n")
    line = "  "
    for k in range(len(parts)):
        x = "canonical_%d" % k + (" ++" if k + 1 < len(parts) else "")
        if len(line) + len(x) + 1 > 118:
            f.write(line.rstrip() + "\n")
            line = "  "
        line += x + " "
    f.write(line.rstrip() + "\n\nend GoTable.Spec\n")
print(len(rows))
