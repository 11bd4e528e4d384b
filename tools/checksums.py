#!/usr/bin/env python3
"""Compare the SHA-256 sums of /repo/runewidth/runewidth_test.go with those of the Lean model.

Evaluates the model (not a proof) on all code points: membership in the eight tables and RuneWidth in both modes, with
and without lookup table. Usage: python3 tools/checksums.py [repo]   (the Lean project must have been built)"""
import hashlib, os, re, subprocess, sys, tempfile

repo = sys.argv[1] if len(sys.argv) > 1 else "/repo"
lean = os.path.join(os.path.dirname(os.path.abspath(__file__)), "..", "lean")
test = open(os.path.join(repo, "runewidth/runewidth_test.go"), encoding="utf-8").read()
want = {n: h for n, h in re.findall(r'\{\w+, "(\w+)", \d+, "([0-9a-f]{64})"\}', test)}
want.update({n: h for n, h in re.findall(r'\{"(ea-\w+)", \w+, "([0-9a-f]{64})"\}', test)})
names = {"private": "privateUse"}
tables = [n for n in want if not n.startswith("ea-")]
with tempfile.TemporaryDirectory() as d:
    src = ["import Verif.Model.RuneWidth", "open GoTable",
           "def dump (name : String) (f : Nat → UInt8) : IO Unit := do",
           "  let mut b := ByteArray.emptyWithCapacity 0x110000",
           "  for r in [0:0x110000] do b := b.push (f r)",
           f'  IO.FS.writeBinFile (("{d}/" ++ name : String)) b',
           "def main : IO Unit := do"]
    for t in tables:
        src.append(f'  dump "{t}" fun r => if inTable r {names.get(t, t)} then 1 else 0')
    for n, f in (("ea-no", "false"), ("ea-yes", "true")):
        src.append(f'  dump "{n}" fun r => UInt8.ofNat (GoTable.runeWidth ⟨{f}, true⟩ (r : Int))')
        src.append(f'  let lut := ((List.range (0x110000 / 2)).map (lutByte ⟨{f}, true⟩)).toArray')
        src.append(f'  dump "{n}-lut" fun r => (lut[r >>> 1]! >>> (UInt8.ofNat (r &&& 1) * 4)) &&& 3')
    p = os.path.join(d, "Dump.lean")
    open(p, "w", encoding="utf-8").write("\n".join(src) + "\n")
    subprocess.run(["lake", "env", "lean", "--run", p], cwd=lean, check=True)
    bad = 0
    for n in tables + ["ea-no", "ea-no-lut", "ea-yes", "ea-yes-lut"]:
        got = hashlib.sha256(open(os.path.join(d, n), "rb").read()).hexdigest()
        ok = got == want[n.replace("-lut", "")]
        bad += not ok
        print(n, "ok" if ok else "DIFFERS " + got)
sys.exit(1 if bad else 0)
