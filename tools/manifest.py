#!/usr/bin/env python3
"""Writes MANIFEST.json: collects the theorems named Cnn_* in lean/Verif/Props/*.lean."""
import glob, json, re

# status is "partial" if there is a theorem ending in _partial, unless listed here
STATUS = {}
NOTES = {}
exec(open('/verif/tools/notes.py').read())

props = [json.loads(l) for l in open('/verif/properties.jsonl')]
thms = {}
for f in sorted(glob.glob('/verif/lean/Verif/Props/*.lean')):
    src = open(f).read()
    # strip block comments
    src = re.sub(r'/-.*?-/', '', src, flags=re.S)
    for m in re.finditer(r'^theorem (C\d\d+)(_\w+)', src, flags=re.M):
        thms.setdefault(m.group(1), []).append('Verif.Props.' + m.group(1) + m.group(2))
claims = []
for p in props:
    i = p['id']
    t = thms.get(i, [])
    if i in STATUS:
        s = STATUS[i]
    elif not t:
        continue
    elif any(x.endswith('_partial') for x in t):
        s = 'partial'
    else:
        s = 'proved'
    claims.append({'property': i, 'status': s, 'theorems': t, 'note': NOTES.get(i, '')})
json.dump({'claims': claims}, open('/verif/MANIFEST.json', 'w'), indent=1)
print(len(claims), 'claims,', sum(len(c['theorems']) for c in claims), 'theorems')
print('without theorem:', [p['id'] for p in props if not thms.get(p['id'])])
