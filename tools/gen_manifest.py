#!/usr/bin/env python3
"""Write MANIFEST.json. A theorem belongs to property Cnn if its name starts with Cnn_; theorems with the
suffix _partial make the status partial. Notes are in tools/notes.json (property -> [status, note])."""
import json, re, glob, os
root = os.path.dirname(os.path.dirname(os.path.abspath(__file__)))
thms = {}
for f in sorted(glob.glob(root + '/lean/Verif/Props/*.lean')):
    for m in re.finditer(r'^theorem (C\d\d\d?)_(\w+)', open(f).read(), re.M):
        thms.setdefault(m.group(1), []).append('GoTable.%s_%s' % m.groups())
notes = json.load(open(root + '/tools/notes.json'))
claims = []
for line in open(root + '/properties.jsonl'):
    p = json.loads(line)['id']
    if p not in thms: continue
    status, note = notes.get(p, ['proved', ''])
    claims.append({'property': p, 'status': status, 'theorems': thms[p], 'note': note})
json.dump({'claims': claims}, open(root + '/MANIFEST.json', 'w'), indent=1, ensure_ascii=False)
print(len(claims), 'claims')
