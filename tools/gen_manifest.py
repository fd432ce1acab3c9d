#!/usr/bin/env python3
"""Writes /verif/MANIFEST.json: every theorem of lean/Verif/Props whose name starts with a property id."""
import json, re, glob
NOTES, PARTIAL = {}, set()
try:
    exec(open('/verif/tools/manifest_notes.py').read())
except FileNotFoundError:
    pass
th = {}
for f in sorted(glob.glob('/verif/lean/Verif/Props/*.lean')):
    text = open(f).read()
    ns = re.search(r'^namespace (\S+)', text, re.M)[1]
    for m in re.finditer(r'^theorem (C\d\d)_(\S+)', text, re.M):
        th.setdefault(m[1], []).append(f"{ns}.{m[1]}_{m[2]}")
claims = []
for line in open('/verif/properties.jsonl'):
    i = json.loads(line)['id']
    if i not in th:
        print("missing", i); continue
    part = i in PARTIAL or any(t.endswith('_partial') for t in th[i])
    claims.append(dict(property=i, status='partial' if part else 'proved', theorems=th[i], note=NOTES.get(i, '')))
json.dump({"claims": claims}, open('/verif/MANIFEST.json', 'w'), indent=1)
print(len(claims), sum(len(c['theorems']) for c in claims))
