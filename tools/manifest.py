#!/usr/bin/env python3
"""Regenerates MANIFEST.json. STATUS maps property -> (status, note). Theorem names are collected from the sources:
every theorem whose name starts with the property id, in lean/Verif/Props."""
import json, re, glob, os
root = os.path.dirname(os.path.dirname(os.path.abspath(__file__)))
exec(open(os.path.join(root, 'tools', 'status.py')).read())
thms = {}
for f in sorted(glob.glob(root + '/lean/Verif/Props/**/*.lean', recursive=True)):
    stack = []
    for line in open(f):
        m = re.match(r'namespace\s+(\S+)', line)
        if m: stack.append(m.group(1)); continue
        m = re.match(r'end\s+(\S+)', line)
        if m and stack and stack[-1] == m.group(1): stack.pop(); continue
        m = re.match(r'(?:private |protected )?theorem\s+((C\d\d)_\S+)', line)
        if m: thms.setdefault(m.group(2), []).append('.'.join(stack + [m.group(1)]))
props = [json.loads(l) for l in open(root + '/properties.jsonl')]
claims = []
for p in props:
    i = p['id']
    t = thms.get(i, [])
    st, note = STATUS.get(i, ('partial', 'in progress'))
    if not t and st == 'proved': raise SystemExit(f'{i}: proved but no theorem')
    if not t and i not in STATUS: continue
    claims.append({'property': i, 'status': st, 'theorems': t, 'note': note})
json.dump({'claims': claims}, open(root + '/MANIFEST.json', 'w'), indent=1, ensure_ascii=False)
print(len(claims), 'claims;', sum(len(c['theorems']) for c in claims), 'theorems; missing:', [p['id'] for p in props if p['id'] not in {c['property'] for c in claims}])
