#!/usr/bin/env python3
"""Regenerates MANIFEST.json from properties.jsonl and the theorem names Cnn_* in lean/Verif."""
import json, re, glob, os
root = os.path.dirname(os.path.dirname(os.path.abspath(__file__)))
names = {}
for f in sorted(glob.glob(root + '/lean/Verif/**/*.lean', recursive=True)):
    src = open(f).read()
    ns = re.findall(r'^namespace (\S+)', src, re.M)
    for m in re.finditer(r'^theorem ((?:C\d\d+_)+)(\w+)', src, re.M):
        full = 'Verif.' + m.group(1) + m.group(2)
        for c in re.findall(r'C\d\d+', m.group(1)):
            names.setdefault(c, []).append(full)
notes = {}
np = root + '/tools/notes.json'
if os.path.exists(np):
    notes = json.load(open(np))
claims = []
for l in open(root + '/properties.jsonl'):
    if not l.strip():
        continue
    j = json.loads(l)
    c = j['id']
    ts = names.get(c, [])
    n = notes.get(c, {})
    status = n.get('status') or ('proved' if ts and not any(t.endswith('_partial') for t in ts) else 'partial')
    claims.append({'property': c, 'status': status, 'theorems': ts, 'note': n.get('note', j['title'])})
json.dump({'claims': claims}, open(root + '/MANIFEST.json', 'w'), indent=1, ensure_ascii=False)
print([(c['property']) for c in claims if not c['theorems']], len(claims))
