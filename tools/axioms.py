#!/usr/bin/env python3
"""Writes /verif/AXIOMS.md: the axioms of every theorem in MANIFEST.json (run after lake build)."""
import json, subprocess, re
m = json.load(open('/verif/MANIFEST.json'))
names = []
for c in m['claims']:
    for t in c['theorems']:
        if t not in names: names.append(t)
open('/tmp/ax.lean','w').write('import Verif\n' + ''.join(f'#print axioms {n}\n' for n in names))
r = subprocess.run('lake env lean /tmp/ax.lean', shell=True, cwd='/verif/lean', capture_output=True, text=True)
out = re.sub(r'\n\s+', ' ', r.stdout)
rows = []
for l in out.split('\n'):
    mm = re.match(r"'(.*)' depends on axioms: \[(.*)\]", l)
    if mm: rows.append((mm.group(1), mm.group(2))); continue
    mm = re.match(r"'(.*)' does not depend on any axioms", l)
    if mm: rows.append((mm.group(1), 'none'))
assert len(rows) == len(names), (len(rows), len(names), r.stdout[:500], r.stderr[:500])
with open('/verif/AXIOMS.md','w') as f:
    f.write('# Axioms of the property theorems (generated by tools/axioms.py)\n\n| theorem | axioms |\n|---|---|\n')
    for a, b in rows: f.write(f'| `{a}` | {b} |\n')
print(len(rows), set(b for _, b in rows))
