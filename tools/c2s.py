#!/usr/bin/env python3
"""Translate g_trans_cart2sph, the offsets of g_c2s and the d, f, g kernels of
/repo/src/cart2sph.c into lean/Verif/Model/C2sTable.lean."""
import re, os, sys
src = open('/repo/src/cart2sph.c').read()
lines = src.split('\n')

# the table, default branch of #ifdef PYPZPX
start = next(i for i, l in enumerate(lines) if l.startswith('static double g_trans_cart2sph[]'))
end = next(i for i in range(start, len(lines)) if lines[i].startswith('};'))
keep, skip = [], False
for l in lines[start+1:end]:
    s = l.strip()
    if s.startswith('#ifdef PYPZPX'): skip = True; continue
    if s.startswith('#else'): skip = False; continue
    if s.startswith('#endif'): skip = False; continue
    if not skip: keep.append(re.sub(r'//.*', '', l))
text = re.sub(r'/\*.*?\*/', '', '\n'.join(keep), flags=re.S)
lits = [x.strip() for x in text.replace('\n', ' ').split(',') if x.strip()]

def parse(x):
    m = re.fullmatch(r'([+-]?)(\d*)\.?(\d*)(?:[eE]([+-]?\d+))?', x)
    assert m and (m.group(2) or m.group(3)), x
    man, dec = int((m.group(2) + m.group(3)) or 0), len(m.group(3))
    e = int(m.group(4) or 0)
    dec -= e
    if dec < 0: man *= 10**(-dec); dec = 0
    if m.group(1) == '-': man = -man
    return man, dec
vals = [parse(x) for x in lits]

i = next(i for i, l in enumerate(lines) if l.startswith('static struct cart2sp_t g_c2s[]'))
offs = []
j = i + 1
while not lines[j].startswith('};'):
    m = re.match(r'\s*\{g_trans_cart2sph\s*(?:\+(\d+))?\s*,', lines[j])
    offs.append(int(m.group(1) or 0)); j += 1
j0 = j

def kernel(name, l):
    a = src.index('static double *%s(' % name)
    line = src[:a].count('\n') + 1
    body = src[a:src.index('\n}', a)]
    last = line + body.count('\n') + 1
    assert 'g_c2s[%d].cart2sph' % l in body
    rows = []
    for st in body.split(';'):
        m = re.search(r'gsph\[(\d+)(\*lds\+i)?\]\s*=(.*)', st, re.S)
        if not m: continue
        terms = [re.fullmatch(r'\s*coeff_c2s\[\s*(\d+)\]\s*\*\s*gcart\[\s*(\d+)(\*nbra\+i)?\]\s*', t)
                 for t in m.group(3).split('+ coeff')[:1] + ['coeff' + t for t in m.group(3).split('+ coeff')[1:]]]
        assert all(terms), st
        ket = '_ket_' in name
        assert bool(m.group(2)) == ket and all(bool(t.group(3)) == ket for t in terms)
        rows.append((int(m.group(1)), [(int(t.group(1)), int(t.group(2))) for t in terms]))
    if '_bra_' in name:
        assert 'gsph += %d;' % (2*l+1) in body and 'gcart += %d;' % ((l+1)*(l+2)//2) in body
    return line, last, rows

out = []
w = out.append
w('/-! Generated by tools/c2s.py from src/cart2sph.c. -/')
w('namespace Verif.Model')
w('')
w('/-- the offsets into g_trans_cart2sph in g_c2s, src/cart2sph.c:%d-%d -/' % (i+1, j0+1))
w('def c2sOff : List Nat := %s' % offs)
w('')
w('/-- A decimal literal `man / 10^dec`. -/')
w('structure Dec where')
w('  man : Int')
w('  dec : Nat')
w('deriving DecidableEq')
w('')
p = 0
names = []
for l in range(16):
    nf = (l+1)*(l+2)//2
    w('/-- The part of g_trans_cart2sph (src/cart2sph.c:%d-%d, PYPZPX not defined) for l = %d: for every row of' % (start+1, end+1, l))
    w('%d literals the nonzero ones with their column. -/' % nf)
    w('def c2sRows%d : List (List (Nat × Dec)) := [' % l)
    for m in range(2*l+1):
        row = vals[p:p+nf]; p += nf
        es = ', '.join('(%d, ⟨%d, %d⟩)' % (k, a, d) for k, (a, d) in enumerate(row) if a != 0)
        w('  [%s]%s' % (es, ',' if m < 2*l else ']'))
    w('')
assert p == len(vals), (p, len(vals))
w('/-- g_trans_cart2sph cut into its parts -/')
w('def c2sRows : List (List (List (Nat × Dec))) := [%s]' % ', '.join('c2sRows%d' % l for l in range(16)))
w('')
for l, c in ((2, 'd'), (3, 'f'), (4, 'g')):
    for side in ('bra', 'ket'):
        nm = '%s_%s_cart2spheric' % (c, side)
        a, b, rows = kernel(nm, l)
        w('/-- the assignments of %s, src/cart2sph.c:%d-%d: `(m, [(a, b), …])` is' % (nm, a, b))
        w('`gsph[m] = coeff_c2s[a] * gcart[b] + …` -/')
        w('def %s : List (Nat × List (Nat × Nat)) := [' % (c + side.capitalize() + 'Rows'))
        for n, (m, ts) in enumerate(rows):
            w('  (%d, [%s])%s' % (m, ', '.join('(%d, %d)' % t for t in ts), ',' if n + 1 < len(rows) else ']'))
        w('')
w('end Verif.Model')
open(os.path.join(os.path.dirname(os.path.abspath(__file__)), '../lean/Verif/Model/C2sTable.lean'), 'w').write('\n'.join(out) + '\n')
print(len(vals), sum(1 for a, d in vals if a))
