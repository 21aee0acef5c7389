#!/usr/bin/env python3
"""Translate g_trans_cart2jR, g_trans_cart2jI and their offsets in g_c2s of
/repo/src/cart2sph.c into lean/Verif/Model/CjTable.lean."""
import re, os
src = open('/repo/src/cart2sph.c').read()
lines = src.split('\n')

def parse(x):
    m = re.fullmatch(r'([+-]?)(\d*)\.?(\d*)(?:[eE]([+-]?\d+))?', x)
    assert m and (m.group(2) or m.group(3)), x
    man, dec = int((m.group(2) + m.group(3)) or 0), len(m.group(3))
    dec -= int(m.group(4) or 0)
    if dec < 0: man *= 10**(-dec); dec = 0
    if m.group(1) == '-': man = -man
    return man, dec

def table(name):
    # default branch of #ifdef PYPZPX
    a = next(i for i, l in enumerate(lines) if l.startswith('static double %s[]' % name))
    b = next(i for i in range(a, len(lines)) if lines[i].startswith('};'))
    keep, skip = [], False
    for l in lines[a+1:b]:
        s = l.strip()
        if s.startswith('#ifdef PYPZPX'): skip = True; continue
        if s.startswith('#else') or s.startswith('#endif'): skip = False; continue
        assert not s.startswith('#'), s
        if not skip: keep.append(re.sub(r'//.*', '', l))
    t = re.sub(r'/\*.*?\*/', '', '\n'.join(keep), flags=re.S)
    return [parse(x.strip()) for x in t.replace('\n', ' ').split(',') if x.strip()], a + 1, b + 1

i = next(i for i, l in enumerate(lines) if l.startswith('static struct cart2sp_t g_c2s[]'))
lt, gt = [], []
j = i + 1
while not lines[j].startswith('};'):
    f = [x.strip() for x in lines[j].strip().strip('{},').split(',')]
    if f[1] == 'NULL':
        assert f[1:] == ['NULL']*4
        lt.append(None); gt.append(None)
    else:
        o = [re.fullmatch(r'g_trans_cart2j([RI])(?:\+(\d+))?', x) for x in f[1:]]
        assert [x.group(1) for x in o] == ['R', 'I', 'R', 'I']
        o = [int(x.group(2) or 0) for x in o]
        assert o[0] == o[1] and o[2] == o[3]
        lt.append(o[0]); gt.append(o[2])
    j += 1

opt = lambda xs: '[' + ', '.join('none' if x is None else 'some %d' % x for x in xs) + ']'
out = []
w = out.append
w('import Verif.Model.C2sTable')
w('')
w('/-! Generated by tools/cj.py from src/cart2sph.c. -/')
w('namespace Verif.Model')
w('')
w('/-- the offsets of `cart2j_lt_lR` into g_trans_cart2jR and of `cart2j_lt_lI` into g_trans_cart2jI in g_c2s,')
w('src/cart2sph.c:%d-%d; `none` is NULL -/' % (i+1, j+1))
w('def cjLt : List (Option Nat) := %s' % opt(lt))
w('/-- the same for `cart2j_gt_lR` and `cart2j_gt_lI` -/')
w('def cjGt : List (Option Nat) := %s' % opt(gt))
w('')
for c in 'RI':
    vals, a, b = table('g_trans_cart2j' + c)
    p = 0
    n = sum(x is not None for x in lt)
    for l in range(n):
        assert p == lt[l]
        nf = (l+1)*(l+2)//2
        w('/-- The part of g_trans_cart2j%s (src/cart2sph.c:%d-%d, PYPZPX not defined) for l = %d: for every row of' % (c, a, b, l))
        w('%d literals the nonzero ones with their column. -/' % (2*nf))
        w('def cjRows%s%d : List (List (Nat × Dec)) := [' % (c, l))
        for m in range(4*l+2):
            row = vals[p:p+2*nf]; p += 2*nf
            es = ', '.join('(%d, ⟨%d, %d⟩)' % (k, x, d) for k, (x, d) in enumerate(row) if x != 0)
            w('  [%s]%s' % (es, ',' if m < 4*l+1 else ']'))
        w('')
    assert p == len(vals), (p, len(vals))
    w('/-- g_trans_cart2j%s cut into its parts -/' % c)
    w('def cjRows%s : List (List (List (Nat × Dec))) := [%s]' % (c, ', '.join('cjRows%s%d' % (c, l) for l in range(n))))
    w('')
    print(len(vals), sum(1 for x, d in vals if x))
w('end Verif.Model')
open(os.path.join(os.path.dirname(os.path.abspath(__file__)), '../lean/Verif/Model/CjTable.lean'), 'w').write('\n'.join(out) + '\n')
