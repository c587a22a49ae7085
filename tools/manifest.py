#!/usr/bin/env python3
"""Regenerate MANIFEST.json: every theorem named Cnn_* under lean/Verif/Props belongs to property Cnn."""
import json, re, glob, os
root = os.path.dirname(os.path.dirname(os.path.abspath(__file__)))
notes = json.load(open(os.path.join(root, 'tools', 'notes.json')))
th = {}
for f in sorted(glob.glob(os.path.join(root, 'lean/Verif/Props/*.lean'))):
    for m in re.finditer(r'^theorem (C(\d\d\d?)_[^\s:({\[]+)', open(f).read(), re.M):
        th.setdefault('C' + m.group(2), []).append('Verif.' + m.group(1))
ids = [json.loads(l)['id'] for l in open(os.path.join(root, 'properties.jsonl'))]
claims = []
for i in ids:
    if i not in th:
        continue
    n = notes.get(i, {})
    st = n.get('status') or ('partial' if any(t.endswith('_partial') for t in th[i]) else 'proved')
    claims.append({'property': i, 'status': st, 'theorems': th[i], 'note': n.get('note', '')})
json.dump({'claims': claims}, open(os.path.join(root, 'MANIFEST.json'), 'w'), indent=1, ensure_ascii=False)
print(len(claims), 'claims;', 'missing', [i for i in ids if i not in th])
