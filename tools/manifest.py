#!/usr/bin/env python3
"""Writes MANIFEST.json from the theorem names Cnn_* found in lean/Verif/Props and the notes below."""
import json, re, os, glob
root = os.path.join(os.path.dirname(os.path.abspath(__file__)), '..')
notes = json.load(open(os.path.join(root, 'tools', 'notes.json')))
thms = {}
for f in sorted(glob.glob(os.path.join(root, 'lean/Verif/Props/*.lean'))):
    ns = 'FinProto'
    for m in re.finditer(r'^theorem (C(\d+)_\S+)', open(f).read(), re.M):
        thms.setdefault('C' + m.group(2), []).append(ns + '.' + m.group(1))
claims = []
for line in open(os.path.join(root, 'properties.jsonl')):
    p = json.loads(line)
    i = p['id']
    if i not in thms:
        continue
    ts = thms[i]
    st = 'partial' if any(t.endswith('_partial') for t in ts) else 'proved'
    claims.append({'property': i, 'status': st, 'theorems': ts, 'note': notes.get(i, '')})
json.dump({'claims': claims}, open(os.path.join(root, 'MANIFEST.json'), 'w'), indent=1)
print(len(claims), 'claims', sum(len(c['theorems']) for c in claims), 'theorems')
