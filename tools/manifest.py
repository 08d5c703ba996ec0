#!/usr/bin/env python3
"""Regenerate MANIFEST.json: collects `theorem Cxx_*` from lean/Verif/Props and applies STATUS/NOTES."""
import re, json, glob, os
root = os.path.join(os.path.dirname(os.path.abspath(__file__)), '..')
ids = [json.loads(l)['id'] for l in open(root + '/properties.jsonl') if l.strip()]
thms = {i: [] for i in ids}
for p in sorted(glob.glob(root + '/lean/Verif/Props/*.lean')):
    ns = []
    for line in open(p):
        m = re.match(r'namespace (\S+)', line)
        if m: ns.append(m.group(1))
        m = re.match(r'end (\S+)\s*$', line)
        if m and ns and ns[-1] == m.group(1): ns.pop()
        m = re.match(r'(?:protected )?theorem ((C\d\d)_\S+)', line)
        if m and m.group(2) in thms: thms[m.group(2)].append('.'.join(ns + [m.group(1)]))
meta = json.load(open(root + '/tools/status.json'))
claims = []
for i in ids:
    st, note = meta.get(i, [None, ''])
    if not thms[i] and st != 'not_applicable': continue
    if st is None:
        st = 'partial' if any(t.endswith('_partial') for t in thms[i]) else 'proved'
    claims.append({'property': i, 'status': st, 'theorems': thms[i], 'note': note})
json.dump({'claims': claims}, open(root + '/MANIFEST.json', 'w'), indent=1)
print(len(claims), {s: sum(c['status'] == s for c in claims) for s in ('proved', 'partial', 'not_applicable')})
