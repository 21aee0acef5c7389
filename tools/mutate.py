#!/usr/bin/env python3
"""Run seeded-bug experiments in a scratch copy.

usage: mutate.py FILE.jsonl
Each input line: {"file": "Verif/Model/X.lean", "def": "...", "old": "...", "new": "...",
                  "edit": "...", "claim": "C.."}
For each, copy lean/ to /tmp/scratch, replace old by new, rebuild, and append one line to
seeded/LOG.jsonl with the declarations whose proof broke.
"""
import json, re, subprocess, sys, os
root = os.path.dirname(os.path.dirname(os.path.abspath(__file__)))
S = '/tmp/scratch'
subprocess.run(f'rm -rf {S}; cp -a {root}/lean {S}', shell=True, check=True)

def decl_at(path, line):
    name = None
    for i, l in enumerate(open(path), 1):
        m = re.match(r'(?:private |noncomputable |omit .* in )*(?:theorem|lemma|def|example|instance|structure|abbrev)\s*(\S*)', l)
        if m:
            if i > line: break
            name = m.group(1) or 'example'
    return name

for ln in open(sys.argv[1]):
    if not ln.strip(): continue
    m = json.loads(ln)
    p = f"{S}/{m['file']}"
    src = open(p).read()
    assert src.count(m['old']) >= 1, ('pattern missing', m)
    n = m.get('nth', 0)
    idx = -1
    for _ in range(n + 1):
        idx = src.index(m['old'], idx + 1)
    open(p, 'w').write(src[:idx] + m['new'] + src[idx + len(m['old']):])
    r = subprocess.run(['lake', 'build'], cwd=S, capture_output=True, text=True)
    out = r.stdout + r.stderr
    failed = []
    for f, l in re.findall(r'^error: (\S+?\.lean):(\d+):', out, re.M):
        d = decl_at(f"{S}/{f}", int(l))
        k = f"{f}: {d}"
        if k not in failed: failed.append(k)
    # property modules that could not be rebuilt because they depend on a failed one
    bad = set(re.findall(r'^- (Verif\.\S+)', out, re.M))
    mods = {}
    for dp, _, fs in os.walk(S + '/Verif'):
        for f in fs:
            if f.endswith('.lean'):
                mod = os.path.relpath(os.path.join(dp, f), S)[:-5].replace('/', '.')
                mods[mod] = set(re.findall(r'^import (Verif\.\S+)', open(os.path.join(dp, f)).read(), re.M))
    blocked = set(bad); ch = True
    while ch:
        ch = False
        for a, b in mods.items():
            if a not in blocked and b & blocked: blocked.add(a); ch = True
    props = sorted(x for x in blocked if '.Props.' in x)
    rec = {'definition': f"{m['file']}: {m['def']}", 'edit': m['edit'], 'claim': m['claim'],
           'failed': failed, 'property_files_blocked': props, 'tightened': m.get('tightened', [])}
    if not failed: rec['survived'] = True
    open(os.path.join(root, 'seeded/LOG.jsonl'), 'a').write(json.dumps(rec) + '\n')
    print(m['edit'], '->', failed[:3] if failed else '*** SURVIVED ***', flush=True)
    open(p, 'w').write(src)
