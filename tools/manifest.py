#!/usr/bin/env python3
"""Regenerates MANIFEST.json from the theorem names in lean/Verif/Properties and tools/notes.json."""
import json, re, glob, os
root = os.path.dirname(os.path.dirname(os.path.abspath(__file__)))
notes = json.load(open(root + '/tools/notes.json'))
ths = {}
for f in sorted(glob.glob(root + '/lean/Verif/Properties/*.lean')):
    ns = 'Verif'
    for m in re.finditer(r'^(?:private )?theorem (C(\d\d\d?)_\S+)', open(f).read(), re.M):
        ths.setdefault('C' + m.group(2), []).append(ns + '.' + m.group(1))
claims = []
for line in open(root + '/properties.jsonl'):
    i = json.loads(line)['id']
    t = ths.get(i, [])
    n = notes.get(i, {})
    if not t:
        continue
    status = n.get('status') or ('partial' if any(x.endswith('_partial') for x in t) else 'proved')
    claims.append({'property': i, 'status': status, 'theorems': t, 'note': n.get('note', '')})
json.dump({'claims': claims}, open(root + '/MANIFEST.json', 'w'), indent=1)
for c in claims: print(c['property'], c['status'], len(c['theorems']))
