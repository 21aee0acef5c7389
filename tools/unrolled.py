#!/usr/bin/env python3
"""Translate the unrolled two-electron kernels of src/g2e.c to lean/Verif/Model/Unrolled.lean.

Every function _g0_2d4d_XXXX / _srg0_2d4d_XXXX becomes a list of assignments `g[n] = expression`, every
case of the two dispatchers an entry of a table.  Any line not understood is an error.
"""
import re, sys
src = open('/repo/src/g2e.c').read().split('\n')
AX = {'x': 0, 'y': 1, 'z': 2}
DECL = {
 'double *b00 = bc->b00;', 'double *b01 = bc->b01;', 'double *b10 = bc->b10;'} | {
 f'double *c0{a} = bc->c00{a};' for a in 'xyz'} | {f'double *cp{a} = bc->c0p{a};' for a in 'xyz'} | {
 f'double {a}i{a}j = envs->rirj[{AX[a]}];' for a in 'xyz'} | {f'double {a}k{a}l = envs->rkrl[{AX[a]}];' for a in 'xyz'}

def tok(s):
    out = re.findall(r'[a-z][a-z0-9]*|\d+|[\[\]()+*]', s)
    assert ''.join(out) == s.replace(' ', ''), s
    return out

class P:
    def __init__(self, t): self.t, self.i = t, 0
    def peek(self): return self.t[self.i] if self.i < len(self.t) else None
    def nxt(self): self.i += 1; return self.t[self.i-1]
    def sum(self):
        e = self.prod()
        while self.peek() == '+':
            self.nxt(); e = f'.add ({e}) ({self.prod()})'
        return e
    def prod(self):
        e = self.atom()
        while self.peek() == '*':
            self.nxt(); e = f'.mul ({e}) ({self.atom()})'
        return e
    def atom(self):
        t = self.nxt()
        if t == '(':
            e = self.sum(); assert self.nxt() == ')'; return e
        if t.isdigit(): return f'.num {t}'
        m = re.fullmatch(r'([xyz])i\1j', t)
        if m: return f'.rij {AX[m[1]]}'
        m = re.fullmatch(r'([xyz])k\1l', t)
        if m: return f'.rkl {AX[m[1]]}'
        assert self.nxt() == '['; n = self.nxt(); assert n.isdigit(); assert self.nxt() == ']'
        if t == 'g': return f'.g {n}'
        if t in ('b00', 'b01', 'b10'): return f'.{t} {n}'
        m = re.fullmatch(r'(c0|cp)([xyz])', t)
        assert m, t
        return f'.{m[1]} {AX[m[2]]} {n}'

funs, name, start = {}, None, None
for ln, line in enumerate(src, 1):
    m = re.fullmatch(r'static inline void (_(?:sr)?g0_2d4d_(\d{4}))\(double \* g, Rys2eT \*bc, CINTEnvVars \*envs\)', line)
    if m:
        name, start, body = m[1], ln, []
        continue
    if name is None: continue
    s = line.strip()
    if line == '}':
        funs[name] = (start, ln, body); name = None; continue
    if s in ('{', '') or s.startswith('//') or s in DECL: continue
    m = re.fullmatch(r'g\[(\d+)\] = (.*);', s)
    assert m, (ln, line)
    p = P(tok(m[2])); e = p.sum(); assert p.i == len(p.t)
    body.append((int(m[1]), e))
assert len(funs) == 70, len(funs)

def dispatch(fn):
    i = next(k for k, l in enumerate(src) if l.startswith(f'void {fn}('))
    out = []
    k = i
    while src[k] != '}':
        m = re.fullmatch(r'\s*case 0b(\d{8}): (_\w+)\(g, bc, envs\); return;', src[k])
        if m: out.append((m[1], m[2]))
        k += 1
    return i+1, k+1, out

out = ['''import Verif.Model.G2eExpr

/-!
Generated by tools/unrolled.py from src/g2e.c: the unrolled two-electron kernels.  Each function is the list of
its assignments `g[n] = e`, in order.
-/
namespace Verif.Model.Unrolled
open Verif.Model
''']
for n, (a, b, body) in funs.items():
    out.append(f'/-- {n}, src/g2e.c:{a}-{b} -/')
    out.append(f'def {n[1:]} : List (Nat × UExpr) := [')
    out.append(',\n'.join(f'  ({k}, {e})' for k, e in body) + ']\n')
for lean, fn in (('unrolled', 'CINTg0_2e_2d4d_unrolled'), ('srUnrolled', 'CINTsrg0_2e_2d4d_unrolled')):
    a, b, cases = dispatch(fn)
    assert len(cases) == 35
    out.append(f'/-- the cases of {fn}, src/g2e.c:{a}-{b}, by `type_ijkl` -/')
    out.append(f'def {lean} : List (Nat × List (Nat × UExpr)) := [')
    out.append(',\n'.join(f'  ({int(c,2)}, {f[1:]})' for c, f in cases) + ']\n')
out.append('end Verif.Model.Unrolled')
open('/verif/lean/Verif/Model/Unrolled.lean', 'w').write('\n'.join(out) + '\n')
