#!/usr/bin/env python3
"""Generate /verif/MANIFEST.json from the theorem names (C##_...) in lean/Verif/Props."""
import json, re, glob
notes = {}
status = {}
exec(open('/verif/tools/status.py').read())
thms = {}
for f in sorted(glob.glob('/verif/lean/Verif/Props/*.lean')):
    ns = []
    for line in open(f):
        m = re.match(r'namespace (\S+)', line)
        if m: ns.append(m.group(1)); continue
        m = re.match(r'end (\S+)', line)
        if m and ns and ns[-1] == m.group(1): ns.pop(); continue
        m = re.match(r'(?:private )?theorem (C\d\d+_\w*)', line)
        if m:
            n = m.group(1)
            thms.setdefault(n.split('_')[0], []).append('.'.join(ns + [n]))
claims = []
missing = []
for line in open('/verif/properties.jsonl'):
    p = json.loads(line)['id']
    t = thms.get(p, [])
    if not t:
        missing.append(p)
        if p in status:
            claims.append(dict(property=p, status=status[p], theorems=[], note=notes.get(p, '')))
        continue
    st = status.get(p) or 'proved'
    claims.append(dict(property=p, status=st, theorems=t, note=notes.get(p, '')))
json.dump(dict(claims=claims), open('/verif/MANIFEST.json', 'w'), indent=1, ensure_ascii=False)
print(len(claims), 'claims', sum(len(c['theorems']) for c in claims), 'theorems; missing:', missing)
