#!/usr/bin/env python3
"""Print, for every theorem in MANIFEST.json, the axioms it depends on (needs a built /verif/lean)."""
import json, os, re, subprocess, tempfile
root = os.path.dirname(os.path.dirname(os.path.abspath(__file__)))
names = [t for c in json.load(open(root + '/MANIFEST.json'))['claims'] for t in c['theorems']]
with tempfile.NamedTemporaryFile('w', suffix='.lean', delete=False) as f:
    f.write('import Verif\n' + ''.join('#print axioms %s\n' % n for n in names))
out = subprocess.run(['lake', 'env', 'lean', f.name], cwd=root + '/lean', capture_output=True, text=True).stdout
os.unlink(f.name)
groups = {}
for m in re.finditer(r"'([\w.]+)' (?:depends on axioms: \[([^\]]*)\]|does not depend on any axioms)", out):
    ax = tuple(sorted(x.strip() for x in (m.group(2) or '').split(',') if x.strip()))
    groups.setdefault(ax, []).append(m.group(1).replace('GoTable.', ''))
assert sum(map(len, groups.values())) == len(names), (sum(map(len, groups.values())), len(names), out[-2000:])
for ax, ts in sorted(groups.items()):
    print('* %s (%d theorems): %s.' % (', '.join('`%s`' % a for a in ax) or 'no axioms', len(ts), ', '.join('`%s`' % t for t in ts)))
