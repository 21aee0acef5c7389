#!/usr/bin/env python3
"""Translate the one-electron functions of /repo/src/autocode into Lean data: the overlap-like ones
(lean/Verif/Model/Auto1e.lean) and those with a Coulomb potential (lean/Verif/Model/AutoNuc.lean).  Every line of a function must match a known form; anything else is an error."""
import re, sys, glob, os
SRC = '/repo/src/autocode/'
LEAN = os.path.join(os.path.dirname(os.path.abspath(__file__)), '..', 'lean', 'Verif', 'Model', '')
OUTSP = os.path.join(os.path.dirname(os.path.abspath(__file__)), '..', 'lean', 'Verif', 'Model', 'AutoSp1e.lean')
OUTNUC = os.path.join(os.path.dirname(os.path.abspath(__file__)), '..', 'lean', 'Verif', 'Model', 'AutoNuc.lean')
OUT = os.path.join(os.path.dirname(os.path.abspath(__file__)), '..', 'lean', 'Verif', 'Model', 'Auto1e.lean')

def err(m): raise SystemExit(m)

class Unsupported(Exception): pass

def parse(name, lines, start, nuc=False):
    """body of CINTgout1e_<name>, from the line after the header; returns program and last line"""
    i = start
    steps, prods, comps, comps2, geo = [], [], {}, {}, {}
    ng = None; phase = 0; dr = set(); inroot = False; nprod = None
    ptrs = {'g0'}
    def line():
        return lines[i].strip()
    while True:
        l = line(); i += 1
        if l in ('FINT nf = envs->nf;', 'FINT ix, iy, iz, n;', 'double *g0 = g;', 'for (n = 0; n < nf; n++) {'): continue
        if nuc and l in ('FINT nrys_roots = envs->nrys_roots;', 'FINT ix, iy, iz, n, i;'): continue
        m = re.fullmatch(r'for \(ix = 0; ix < envs->g_size \* 3; ix\+\+\) \{g(\d+)\[ix\] \+= g(\d+)\[ix\];\}', l)
        if nuc and m:
            steps.append(('+', int(m[1]), int(m[2]))); continue
        m = re.fullmatch(r'double \*g(\d+) = g(\d+) \+ envs->g_size \* 3;', l)
        if m:
            if int(m[1]) != int(m[2])+1: err('pointer %s' % l)
            ptrs.add('g'+m[1]); continue
        m = re.fullmatch(r'double (?:drj|dri|s|c|rirj)\[\d+\](?:, c\[\d+\])?;', l)
        if m: continue
        m = re.fullmatch(r'dr([ij])\[(\d)\] = envs->r([ij])\[(\d)\] - envs->env\[PTR_COMMON_ORIG\+(\d)\];', l)
        if m:
            if m[1] != m[3] or not (m[2] == m[4] == m[5]): err(l)
            dr.add((m[1], m[2])); continue
        m = re.fullmatch(r'rirj\[(\d)\] = envs->ri\[(\d)\] - envs->rj\[(\d)\];', l)
        if m:
            if not (m[1] == m[2] == m[3]): err(l)
            continue
        m = re.fullmatch(r'c\[(\d+)\] = 1((?: \* rirj\[\d\])+);', l)
        if m:
            geo[int(m[1])] = [int(x) for x in re.findall(r'rirj\[(\d)\]', m[2])]; continue
        m = re.fullmatch(r'G1E_(D_|R0|RC|R_)([IJ])\(g(\d+), g(\d+), envs->i_l(?:\+(\d))?, envs->j_l(?:\+(\d))?, 0\);', l)
        if m:
            op = {'D_': '.d', 'R0': '.x0', 'RC': '.xc', 'R_': '.own'}[m[1]]
            t = {'I': 0, 'J': 1}[m[2]]
            if op == '.xc':
                for k in '012':
                    if (m[2].lower(), k) not in dr: err('missing dr')
            steps.append((op, t, int(m[3]), int(m[4]), int(m[5] or 0), int(m[6] or 0))); continue
        m = re.fullmatch(r'G2E_(D_|R0|RC|R_)([IJ])\(g(\d+), g(\d+), envs->i_l(?:\+(\d))?, envs->j_l(?:\+(\d))?, 0, 0\);', l)
        if nuc and m:
            op = {'D_': '.d', 'R0': '.x0', 'RC': '.xc', 'R_': '.own'}[m[1]]
            t = {'I': 0, 'J': 1}[m[2]]
            if op == '.xc':
                for k in '012':
                    if (m[2].lower(), k) not in dr: err('missing dr')
            steps.append((op, t, int(m[3]), int(m[4]), int(m[5] or 0), int(m[6] or 0))); continue
        if nuc:
            m = re.fullmatch(r'for \(i = 0; i < (\d+); i\+\+\) \{ s\[i\] = 0; \}', l)
            if m:
                nprod = int(m[1]); continue
            if l == 'for (i = 0; i < nrys_roots; i++) {':
                inroot = True; continue
            if l == '}' and inroot:
                inroot = False; continue
            m = re.fullmatch(r's\[(\d+)\] \+= g(\d+)\[ix\+i\] \* g(\d+)\[iy\+i\] \* g(\d+)\[iz\+i\];', l)
            if m:
                if not inroot or int(m[1]) != len(prods): err(l)
                prods.append((int(m[2]), int(m[3]), int(m[4]))); continue
        m = re.fullmatch(r'i([xyz]) = idx\[(\d)\+n\*3\];', l)
        if m:
            if 'xyz'[int(m[2])] != m[1]: err(l)
            continue
        m = None if nuc else re.fullmatch(r's\[(\d+)\] = \+ g(\d+)\[ix\+0\]\*g(\d+)\[iy\+0\]\*g(\d+)\[iz\+0\];', l)
        if m:
            if int(m[1]) != len(prods): err(l)
            prods.append((int(m[2]), int(m[3]), int(m[4]))); continue
        if l == 'if (gout_empty) {': phase = 1; continue
        if l == '} else {': phase = 2; continue
        if l == '}}}': break
        m = re.fullmatch(r'gout\[n\*(\d+)\+(\d+)\] (\+?=) (.*);', l)
        if m:
            n = int(m[1]); ng = ng or n
            if n != ng: err(l)
            if (m[3] == '=') != (phase == 1): err(l)
            terms = []
            rest = m[4].strip()
            if rest == '0': rest = ''
            pos = 0
            for t in re.finditer(r'\s*([+-]) ?(?:(\d+)\*)?(?:c\[(\d+)\]\*)?s\[(\d+)\]', rest):
                if t.start() != pos: err('gap in ' + l)
                pos = t.end()
                c = int(t[2] or 1) * (1 if t[1] == '+' else -1)
                terms.append((c, geo[int(t[3])] if t[3] else [], int(t[4])))
            if pos != len(rest): err('tail of ' + l)
            (comps if phase == 1 else comps2)[int(m[2])] = terms
            continue
        err('%s: unknown line %r' % (name, l))
    if nuc and nprod != len(prods): err('number of products of ' + name)
    if comps != comps2 or sorted(comps) != list(range(ng)): err('components of %s' % name)
    return steps, prods, [comps[k] for k in range(ng)], i

def wrapper(name, lines):
    """ng, factor, int1e_type and shortcut of int1e_<name>_cart; all variants must agree"""
    text = '\n'.join(lines)
    ngs = set(); facs = set(); short = set(); typ = None
    m = re.search(r'void %s_optimizer\(.*?\n(.*?)\n}' % name, text, re.S)
    ngs.add(re.search(r'FINT ng\[\] = \{(.*?)\};', m[1])[1])
    for kind in ('cart', 'sph', 'spinor'):
        m = re.search(r'CACHE_SIZE_T %s_%s\(.*?\n} // %s_%s' % (name, kind, name, kind), text, re.S)
        b = m[0]
        ngs.add(re.search(r'FINT ng\[\] = \{(.*?)\};', b)[1])
        f = re.search(r'envs.common_factor \*= (.*?);', b)
        facs.add(f[1] if f else '1')
        short.add('envs.shls[0] == envs.shls[1]' in b)
        if not re.search(r'envs.f_gout = &CINTgout1e_%s;' % name, b): err(name + ' f_gout')
        if kind != 'spinor':
            m = re.search(r'return CINT1e_drv\(out, dims, &envs, cache, &c2s_%s_1e, (\d)\);' % kind, b)
            typ = int(m[1])
        else:
            m = re.search(r'return CINT1e_spinor_drv\(out, dims, &envs, cache, &c2s_(s[fi])_1e(i?), (\d)\);', b)
            spin = (m[1] == 'si', m[2] == 'i')
            if int(m[3]) != typ: err(name + ' spinor type')
    if len(ngs) != 1 or len(facs) != 1 or len(short) != 1: err('variants of %s differ' % name)
    ng = [int(x) for x in ngs.pop().split(',')]
    l0 = next(k for k, l in enumerate(lines) if l.startswith('CACHE_SIZE_T %s_cart(' % name)) + 1
    return ng, facs.pop(), short.pop(), typ, l0, spin

FAC = {'1': (1, 1), '0.5': (1, 2), '0.25': (1, 4), '0.125': (1, 8), '-1': (-1, 1), '-0.5': (-1, 2), '-0.25': (-1, 4)}

def parse_a(name, lines, start):
    """body of a function of src/cint1e_a.c: as in src/autocode, except that the components are sums of products"""
    i = start
    steps, prods, comps, ends = [], [], {}, {}
    phase = 0
    while True:
        l = lines[i].strip(); i += 1
        while l.startswith('s[') and not l.endswith(';'):
            l += ' ' + lines[i].strip(); i += 1
        if l in ('FINT nf = envs->nf;', 'FINT ix, iy, iz, n;', 'double *g0 = g;', 'for (n = 0; n < nf; n++) {', 'double s;'): continue
        if re.fullmatch(r'double s\[\d+\];', l): continue
        m = re.fullmatch(r'double \*g(\d+) = g(\d+) +\+ envs->g_size \* 3;', l)
        if m:
            if int(m[1]) != int(m[2])+1: err('pointer %s' % l)
            continue
        m = re.fullmatch(r'G1E_(D_|R_)([IJ])\(g(\d+), g(\d+), envs->i_l(?:\+(\d))?, envs->j_l(?:\+(\d))?, 0\);', l)
        if m:
            steps.append(({'D_': '.d', 'R_': '.own'}[m[1]], {'I': 0, 'J': 1}[m[2]], int(m[3]), int(m[4]), int(m[5] or 0), int(m[6] or 0))); continue
        m = re.fullmatch(r'i([xyz]) = idx\[(\d)\+n\*3\];', l)
        if m:
            if 'xyz'[int(m[2])] != m[1]: err(l)
            continue
        m = re.fullmatch(r's(?:\[(\d+)\])? ?(\+?=) (.*);', l)
        if m:
            k = int(m[1] or 0)
            if (m[2] == '=') != (k not in comps): err(l)
            comps.setdefault(k, [])
            rest = m[3]
            if rest[0] == '(' and rest[-1] == ')': rest = rest[1:-1]
            for t in re.split(r' *\+(?= ?(?:\d\*)?g)', rest):
                t = re.fullmatch(r' ?(?:(\d)\*)?g(\d+)\[ix\+0\]\*g(\d+)\[iy\+0\]\*g(\d+)\[iz\+0\](?: \* (\d))?', t)
                if not t: err(l)
                comps[k].append((int(t[1] or 1) * int(t[5] or 1), [], len(prods)))
                prods.append((int(t[2]), int(t[3]), int(t[4])))
            continue
        if l in ('if (empty) {', 'if (gout_empty) {'): phase = 1; continue
        if l == '} else {': phase = 2; continue
        m = re.fullmatch(r'gout\[n(?:\*(\d+)\+(\d+))?\] (\+?=) s(?:\[(\d+)\])?;', l)
        if m:
            if (m[2] or '0') != (m[4] or '0') or int(m[1] or 1) != len(comps) or (m[3] == '=') != (phase == 1): err(l)
            ends.setdefault(phase, []).append(int(m[2] or 0)); continue
        if l == '}':
            if lines[i-1] == '}': break
            continue
        err('%s: unknown line %r' % (name, l))
    if ends[1] != list(range(len(comps))) or ends[2] != ends[1]: err(name)
    return steps, prods, [comps[k] for k in range(len(comps))], i

def lean_steps(name, steps, ng):
    """the operators, and after them the sums of arrays with the operators that follow each; a function that reads entries
    it has not written is not translated"""
    pad = lambda x: tuple(x) + (0,)*(4-len(x))
    fmt = lambda x: '⟨%s, %d, %d, %d, ![%d, %d, %d, %d]⟩' % (tuple(x[:4]) + pad(x[4:]))
    inc = {0: tuple(ng[:4])}
    first, more = [], []
    for x in steps:
        if x[0] == '+':
            if inc[x[1]] != inc[x[2]]: raise Unsupported(name)
            more.append(('⟨%d, %d, ![%d, %d, %d, %d]⟩' % ((x[1], x[2]) + inc[x[1]]), [])); continue
        op, t, d, src = x[:4]
        need = list(pad(x[4:])); need[t] += 1
        if any('+' in y for y in steps):
            if any(a > b for a, b in zip(need, inc[src])): raise Unsupported(name)
        if op == '.own':
            q = list(inc[src]); q[t] -= 1; inc[d] = tuple(q)
        else: inc[d] = pad(x[4:])
        (more[-1][1] if more else first).append(fmt(x))
    out = ['    steps := [' + ',\n      '.join(first) + ']']
    if more:
        out.append('    more := [' + ',\n      '.join('(%s, [%s])' % (a, ', '.join(l)) for a, l in more) + ']')
    return out

def emit(out, base, name, k, end, l0, ng, fac, steps, prods, comps):
    num, den = FAC[fac]
    out.append('/-- %s: src/%s:%d-%d (`CINTgout1e_%s`) and %d ff -/' % (name, base, k+1, end, name, l0))
    out.append('def %s : Gen1e where' % name)
    out.append('  ng := ⟨%d, %d, %d, %d, %d⟩' % (ng[0], ng[1], ng[2], ng[3], ng[6]))
    out.append('  gbits := %d' % ng[4])
    out.append('  nComp := %d' % (ng[5]*ng[7]))
    if (num, den) != (1, 1):
        out.append('  num := %d' % num)
        out.append('  den := %d' % den)
    out.append('  prog := {')
    out += steps
    pr = ['(%d, %d, %d)' % p for p in prods]
    ls = [', '.join(pr[a:a+9]) for a in range(0, len(pr), 9)]
    out.append('    prods := [' + ',\n      '.join(ls) + ']')
    cs = ['[' + ', '.join('(%d, [%s], %d)' % (c, ', '.join(map(str, g)), s) for c, g, s in t) + ']' for t in comps]
    out.append('    comps := [' + ',\n      '.join(cs) + '] }')
    out.append('')

def parse2(name, lines, start):
    """body of CINTgout2e_<name>; the unrolled sums over 1 to 4 roots must be those of the loop"""
    i = start
    steps, prods, comps, comps2, geo = [], [], {}, {}, {}
    ng = None; phase = 0; dr = set(); nprod = None; case = None; unrolled = {}; inroot = False
    rr = set()
    while True:
        l = lines[i].strip(); i += 1
        if l in ('double *g, FINT *idx, CINTEnvVars *envs, FINT gout_empty) {', 'FINT nf = envs->nf;', 'FINT nrys_roots = envs->nrys_roots;',
                 'FINT ix, iy, iz, i, n;', 'double *g0 = g;', 'for (n = 0; n < nf; n++) {'): continue
        m = re.fullmatch(r'for \(ix = 0; ix < envs->g_size \* 3; ix\+\+\) \{g(\d+)\[ix\] \+= g(\d+)\[ix\];\}', l)
        if m:
            steps.append(('+', int(m[1]), int(m[2]))); continue
        m = re.fullmatch(r'double \*g(\d+) = g(\d+) \+ envs->g_size \* 3;', l)
        if m:
            if int(m[1]) != int(m[2])+1: err('pointer %s' % l)
            continue
        if re.fullmatch(r'double (?:dr[ijkl]|s|c|rirj|rkrl)\[\d+\](?:, c\[\d+\])?;', l): continue
        m = re.fullmatch(r'dr([ijkl])\[(\d)\] = envs->r([ijkl])\[(\d)\] - envs->env\[PTR_COMMON_ORIG\+(\d)\];', l)
        if m:
            if m[1] != m[3] or not (m[2] == m[4] == m[5]): err(l)
            dr.add((m[1], m[2])); continue
        m = re.fullmatch(r'r([ik])r([jl])\[(\d)\] = envs->r([ik])\[(\d)\] - envs->r([jl])\[(\d)\];', l)
        if m:
            if m[1]+m[2] not in ('ij', 'kl') or m[1] != m[4] or m[2] != m[6] or not (m[3] == m[5] == m[7]): err(l)
            rr.add((m[1], m[3])); continue
        m = re.fullmatch(r'c\[(\d+)\] = 1((?: \* r[ik]r[jl]\[\d\])+);', l)
        if m:
            fs = re.findall(r'r([ik])r([jl])\[(\d)\]', m[2])
            for f in fs:
                if (f[0], f[2]) not in rr: err(l)
            geo[int(m[1])] = [int(f[2]) + (3 if f[0] == 'k' else 0) for f in fs]; continue
        m = re.fullmatch(r'G2E_(D_|R0|RC|R_)([IJKL])\(g(\d+), g(\d+), envs->i_l(?:\+(\d))?, (?:(0)|envs->j_l(?:\+(\d))?), envs->k_l(?:\+(\d))?, (?:(0)|envs->l_l(?:\+(\d))?)\);', l)
        if m:
            if bool(m[6]) != ('int2c2e' in name) or bool(m[9]) != ('int2e' not in name): err(l)
            op = {'D_': '.d', 'R0': '.x0', 'RC': '.xc', 'R_': '.own'}[m[1]]
            t = 'IJKL'.index(m[2])
            if op == '.xc':
                for k in '012':
                    if (m[2].lower(), k) not in dr: err('missing dr')
            steps.append((op, t, int(m[3]), int(m[4]), int(m[5] or 0), int(m[7] or 0), int(m[8] or 0), int(m[10] or 0))); continue
        if l == 'switch (nrys_roots) {': continue
        m = re.fullmatch(r'case (\d):', l)
        if m:
            case = int(m[1]); unrolled[case] = []; continue
        if l == 'break;': case = None; continue
        if l == 'default:': continue
        m = re.fullmatch(r'for \(i = 0; i < (\d+); i\+\+\) \{ s\[i\] = 0; \}', l)
        if m: nprod = int(m[1]); continue
        if l == 'for (i = 0; i < nrys_roots; i++) {': inroot = True; continue
        if l in ('} break;}', '}') and inroot: inroot = False; continue
        m = re.fullmatch(r's\[(\d+)\] \+= g(\d+)\[ix\+i\] \* g(\d+)\[iy\+i\] \* g(\d+)\[iz\+i\];', l)
        if m:
            if not inroot or int(m[1]) != len(prods): err(l)
            prods.append((int(m[2]), int(m[3]), int(m[4]))); continue
        m = re.fullmatch(r's\[(\d+)\] = (.*);', l)
        if m and case:
            if int(m[1]) != len(unrolled[case]): err(l)
            ts = re.findall(r'\+ g(\d+)\[ix\+(\d)\]\*g(\d+)\[iy\+(\d)\]\*g(\d+)\[iz\+(\d)\]', m[2])
            if ''.join('+ g%s[ix+%s]*g%s[iy+%s]*g%s[iz+%s]' % t for t in ts) != m[2]: err(l)
            if len(ts) != case or any(not (t[1] == t[3] == t[5] == str(k)) for k, t in enumerate(ts)): err(l)
            ps = set((int(t[0]), int(t[2]), int(t[4])) for t in ts)
            if len(ps) != 1: err(l)
            unrolled[case].append(ps.pop()); continue
        m = re.fullmatch(r'i([xyz]) = idx\[(\d)\+n\*3\];', l)
        if m:
            if 'xyz'[int(m[2])] != m[1]: err(l)
            continue
        if l == 'if (gout_empty) {': phase = 1; continue
        if l == '} else {': phase = 2; continue
        if l == '}}}': break
        m = re.fullmatch(r'gout\[n\*(\d+)\+(\d+)\] (\+?=) (.*);', l)
        if m:
            n = int(m[1]); ng = ng or n
            if n != ng: err(l)
            if (m[3] == '=') != (phase == 1): err(l)
            terms = []
            rest = m[4].strip()
            if rest == '0': rest = ''
            pos = 0
            for t in re.finditer(r'\s*([+-]) ?(?:(\d+)\*)?(?:c\[(\d+)\]\*)?s\[(\d+)\]', rest):
                if t.start() != pos: err('gap in ' + l)
                pos = t.end()
                c = int(t[2] or 1) * (1 if t[1] == '+' else -1)
                terms.append((c, geo[int(t[3])] if t[3] else [], int(t[4])))
            if pos != len(rest): err('tail of ' + l)
            (comps if phase == 1 else comps2)[int(m[2])] = terms
            continue
        err('%s: unknown line %r' % (name, l))
    if nprod != len(prods): err('number of products of ' + name)
    for k in unrolled:
        if unrolled[k] != prods: err('unrolled sums of ' + name)
    if comps != comps2 or sorted(comps) != list(range(ng)): err('components of %s' % name)
    return steps, prods, [comps[k] for k in range(ng)], i

def wrapper2(name, lines):
    """ng, factor, shortcuts, driver and spinor output of the wrappers of an integral"""
    text = '\n'.join(lines)
    ngs = set(); facs = set(); short = set(); drvs = set()
    m = re.search(r'void %s_optimizer\(.*?\n(.*?)\n}' % name, text, re.S)
    ngs.add(re.search(r'FINT ng\[\] = \{(.*?)\};', m[1])[1])
    spin = None; sfac = '1'
    for kind in ('cart', 'sph', 'spinor'):
        m = re.search(r'CACHE_SIZE_T %s_%s\(.*?\n}' % (name, kind), text, re.S)
        b = m[0]
        if 'not implemented' in b: continue
        ngs.add(re.search(r'FINT ng\[\] = \{(.*?)\};', b)[1])
        f = re.search(r'envs.common_factor \*= (.*?);', b)
        if kind == 'spinor': sfac = f[1] if f else '1'
        else: facs.add(f[1] if f else '1')
        short.add(('envs.shls[0] == envs.shls[1]' in b, 'envs.shls[2] == envs.shls[3]' in b))
        if not re.search(r'envs.f_gout = &CINTgout2e_%s;' % name, b): err(name + ' f_gout')
        fam = re.search(r'CINTinit_(int\w+)_EnvVars\(&envs, ng, shls, atm, natm, bas, nbas, env\);', b)[1]
        if kind != 'spinor':
            r = {'int2e': r'return CINT2e_drv\(out, dims, &envs, opt, cache, &c2s_%s_2e1\);',
                 'int3c2e': r'return CINT3c2e_drv\(out, dims, &envs, opt, cache, &c2s_%s_3c2e1, 0\);',
                 'int2c2e': r'return CINT2c2e_drv\(out, dims, &envs, opt, cache, &c2s_%s_1e\);'}[fam] % kind
            if not re.search(r, b): err(name + ' driver')
            drvs.add(fam)
        else:
            if fam == 'int2e':
                m = re.search(r'return CINT2e_spinor_drv\(out, dims, &envs, opt, cache, &c2s_(s[fi])_2e1(i?), &c2s_(s[fi])_2e2(i?)\);', b)
                spin = (m[1] == 'si', m[2] == 'i', m[3] == 'si', m[4] == 'i')
            else:
                m = re.search(r'return CINT3c2e_spinor_drv\(out, dims, &envs, opt, cache, &c2s_(s[fi])_3c2e1(i?), 0\);', b)
                spin = (m[1] == 'si', m[2] == 'i')
    if len(ngs) != 1 or len(facs) != 1 or len(short) != 1 or len(drvs) != 1: err('variants of %s differ %r' % (name, short))
    ng = [int(x) for x in ngs.pop().split(',')]
    l0 = next(k for k, l in enumerate(lines) if l.startswith('CACHE_SIZE_T %s_cart(' % name)) + 1
    return ng, facs.pop(), short.pop(), drvs.pop(), l0, spin, sfac

def main2():
    res = {'int2e': [], 'int3c2e': [], 'int2c2e': []}; skipped = []
    for f in sorted(glob.glob(SRC + '*.c')):
        base = os.path.basename(f)
        lines = open(f).read().split('\n')
        for k, l in enumerate(lines):
            m = re.match(r'(?:static )?void CINTgout2e_(int\w+)\(double', l)
            if not m: continue
            name = m[1]
            ng, fac, short, fam, l0, spin, sfac = wrapper2(name, lines)
            try:
                steps, prods, comps, end = parse2(name, lines, k+1)
                steps = lean_steps(name, steps, ng)
            except Unsupported:
                skipped.append(name); continue
            if ng[5]*ng[6]*ng[7] != len(comps): err(name + ' ncomp')
            out = []
            num, den = FAC[fac]
            if sum(map(len, comps)) > 300: out.append('set_option maxHeartbeats 1000000 in')
            out.append('/-- %s: src/autocode/%s:%d-%d (`CINTgout2e_%s`) and %d ff -/' % (name, base, k+1, end, name, l0))
            out.append('def %s : Gen2e where' % name)
            out.append('  ng := ⟨%d, %d, %d, %d, 0⟩' % tuple(ng[:4]))
            out.append('  gbits := %d' % ng[4])
            out.append('  nComp := %d' % len(comps))
            if (num, den) != (1, 1):
                out.append('  num := %d' % num)
                out.append('  den := %d' % den)
            out.append('  prog := {')
            out += steps
            pr = ['(%d, %d, %d)' % p for p in prods]
            ls = [', '.join(pr[a:a+9]) for a in range(0, len(pr), 9)]
            out.append('    prods := [' + ',\n      '.join(ls) + ']')
            cs = ['[' + ', '.join('(%d, [%s], %d)' % (c, ', '.join(map(str, g)), s) for c, g, s in t) + ']' for t in comps]
            out.append('    comps := [' + ',\n      '.join(cs) + '] }')
            out.append('')
            res[fam].append((name, short, spin, ng, out, len(prods), sum(map(len, comps)), fac, sfac))
    docs = {'int2e': 'the two-electron four-centre integrals', 'int3c2e': 'the two-electron three-centre integrals',
            'int2c2e': 'the two-electron two-centre integrals'}
    files = {'int2e': ('Auto2e', 'all2e'), 'int3c2e': ('Auto3c2e', 'all3c'), 'int2c2e': ('Auto2c2e', 'all2c')}
    for fam, (mod, lst) in files.items():
        hdr = ['import Verif.Model.Oper2', '',
               '/-! Generated by tools/autocode.py from src/autocode: %s%s' % (docs[fam], ', except' if fam == 'int2e' else '.'),
               ('`int2e_ipvg1_xp1` and `int2e_ipvg2_xp1`.  ' if fam == 'int2e' else '') + 'As in Auto1e.lean and AutoNuc.lean; the factors 0, 1, 2 of a term are the components of',
               '`rirj = ri - rj`, the factors 3, 4, 5 those of `rkrl = rk - rl`.  The factor is that of the wrappers `_cart` and `_sph`. -/',
               'namespace Verif.Model.%s' % mod, 'open Verif.Model', '']
        ftr = ['/-- all of them -/', 'def %s : List (String × Gen2e) := [' % lst,
               ',\n'.join('  ("%s", %s)' % (x[0], x[0]) for x in res[fam]) + ']', '']
        for t, nm, sh in ((0, 'shortcutIJ', 'shls[0] == envs.shls[1]'), (1, 'shortcutKL', 'shls[2] == envs.shls[3]')):
            ftr += ['/-- those whose wrapper returns zeros when two shells are the same (`envs.%s`) -/' % sh,
                    'def %s : List String := [' % nm + ', '.join('"%s"' % x[0] for x in res[fam] if x[1][t]) + ']', '']
        ftr += ['end Verif.Model.%s' % mod, '']
        open(LEAN + mod + '.lean', 'w').write('\n'.join(hdr + [l for x in res[fam] for l in x[4]] + ftr))
    b = lambda x: 'true' if x else 'false'
    sp = ['import Verif.Model.Spinor', 'import Verif.Model.Oper2', '', '/-! Generated by tools/autocode.py from src/autocode: the output functions and the factor of the `_spinor` wrapper of every',
          'integral of Auto2e.lean and of Auto3c2e.lean. -/', 'namespace Verif.Model.Auto', 'open Verif.Model', '',
          '/-- A wrapper int2e_*_spinor or int3c2e_*_spinor: the output functions for the two electrons (`c2s_sf_2e1` ⟨false, false⟩,',
          '`c2s_sf_2e1i` ⟨false, true⟩, `c2s_si_2e1` ⟨true, false⟩, `c2s_si_2e1i` ⟨true, true⟩; likewise `2e2` and, for the only pair,',
          '`3c2e1`), `ng[POS_E1]`, `ng[POS_E2]`, `ng[TENSOR]` and the factor `num/den` of `common_factor`. -/',
          'structure SpWrap where', '  name : String', '  k1 : SpKind', '  k2 : SpKind := ⟨false, false⟩', '  e1 : Nat', '  e2 : Nat', '  nT : Nat',
          '  num : Int := 1', '  den : Nat := 1', '',
          '/-- the integral as the spinor wrapper sets it up: the same `ng` and `f_gout`, its own factor -/',
          'def SpWrap.gen (w : SpWrap) (G : Gen2e) : Gen2e := { G with num := w.num, den := w.den }', '']
    for fam, lst, doc in (('int2e', 'spinor2e', 'the wrappers int2e_*_spinor (CINT2e_spinor_drv)'), ('int3c2e', 'spinor3c', 'the wrappers int3c2e_*_spinor (CINT3c2e_spinor_drv, `is_ssc` 0)')):
        rows = []
        for x in res[fam]:
            k = x[2]; num, den = FAC[x[8]]
            rows.append('  { name := "%s", k1 := ⟨%s, %s⟩%s, e1 := %d, e2 := %d, nT := %d%s }' % (x[0], b(k[0]), b(k[1]),
                ', k2 := ⟨%s, %s⟩' % (b(k[2]), b(k[3])) if fam == 'int2e' else '', x[3][5], x[3][6], x[3][7],
                ', num := %d, den := %d' % (num, den) if (num, den) != (1, 1) else ''))
        sp += ['/-- %s -/' % doc, 'def %s : List SpWrap := [' % lst, ',\n'.join(rows) + ']', '']
    sp += ['end Verif.Model.Auto', '']
    open(LEAN + 'AutoSp2e.lean', 'w').write('\n'.join(sp))
    print({f: len(res[f]) for f in res}, 'without', skipped)
    return res

def main():
    out = []
    names = []
    spins = []
    nout, nnames, skipped, nspins = [], [], [], []
    for f in sorted(glob.glob(SRC + '*.c')):
        base = os.path.basename(f)
        lines = open(f).read().split('\n')
        for k, l in enumerate(lines):
            m = re.match(r'void CINTgout1e_(int1e_\w+)\(double', l)
            if not m or 'grids' in m[1]: continue
            name = m[1]
            ng, fac, short, typ, l0, spin = wrapper(name, lines)
            if typ != 0:
                try:
                    steps, prods, comps, end = parse(name, lines, k+1, True)
                    steps = lean_steps(name, steps, ng)
                except Unsupported:
                    skipped.append(name); continue
                if ng[5]*ng[7] != len(comps): err(name + ' ncomp')
                nnames.append((name, typ == 2, short))
                nspins.append((name, spin, ng[5], ng[7]))
                emit(nout, 'autocode/' + base, name, k, end, l0, ng, fac, steps, prods, comps)
                continue
            steps, prods, comps, end = parse(name, lines, k+1)
            steps = lean_steps(name, steps, ng)
            if ng[5]*ng[7] != len(comps): err(name + ' ncomp')
            names.append((name, short))
            spins.append((name, spin, ng[5], ng[7]))
            emit(out, 'autocode/' + base, name, k, end, l0, ng, fac, steps, prods, comps)
    lines = open(SRC + '../cint1e_a.c').read().split('\n')
    for k, l in enumerate(lines):
        m = re.match(r'(?:static )?void CINTgout1e_(int1e_\w+)\(double', l)
        if not m: continue
        name = m[1]
        ng, fac, short, typ, l0, spin = wrapper(name, lines)
        steps, prods, comps, end = parse_a(name, lines, k+1)
        steps = lean_steps(name, steps, ng)
        if typ != 0 or ng[5]*ng[7] != len(comps): err(name)
        names.append((name, short))
        spins.append((name, spin, ng[5], ng[7]))
        emit(out, 'cint1e_a.c', name, k, end, l0, ng, fac, steps, prods, comps)
    hdr = ['import Verif.Model.Oper', '',
           '/-! Generated by tools/autocode.py from src/autocode and src/cint1e_a.c: every one-electron integral evaluated with `int1e_type = 0`',
           '(overlap intermediates).  The two branches on `gout_empty` of each function have the same right-hand sides (checked by',
           'the translator) and are represented once; the declarations of pointers `g<k> = g0 + k*3*g_size`, of `rirj = ri - rj`, of',
           '`dri`/`drj` (centre minus common origin) and the products `c[...]` of `rirj` components are folded into the terms.  The wrappers `_cart`, `_sph`, `_spinor` and',
           '`_optimizer` use the same `ng`, factor and `f_gout` (checked by the translator). -/',
           'namespace Verif.Model.Auto', 'open Verif.Model', '']
    ftr = ['/-- all of them -/', 'def all1e : List (String × Gen1e) := [']
    ftr.append(',\n'.join('  ("%s", %s)' % (n, n) for n, _ in names) + ']')
    ftr += ['', '/-- those whose wrapper returns zeros when both shells are the same (`envs.shls[0] == envs.shls[1]`) -/',
            'def shortcut1e : List String := [' + ', '.join('"%s"' % n for n, s in names if s) + ']', '',
            'end Verif.Model.Auto', '']
    open(OUT, 'w').write('\n'.join(hdr + out + ftr))
    b = lambda x: 'true' if x else 'false'
    sp = ['import Verif.Model.Spinor', '', '/-! Generated by tools/autocode.py from src/autocode: the output function of the `_spinor` wrapper of every integral of',
          'Auto1e.lean and of AutoNuc.lean. -/', 'namespace Verif.Model.Auto', 'open Verif.Model', '',
          '/-- name, output function (`c2s_sf_1e` ⟨false, false⟩, `c2s_sf_1ei` ⟨false, true⟩, `c2s_si_1e` ⟨true, false⟩,',
          '`c2s_si_1ei` ⟨true, true⟩), `ng[POS_E1]`, `ng[TENSOR]` of the wrappers int1e_*_spinor -/',
          'def spinor1e : List (String × SpKind × Nat × Nat) := [',
          ',\n'.join('  ("%s", ⟨%s, %s⟩, %d, %d)' % (n, b(k[0]), b(k[1]), e, t) for n, k, e, t in spins) + ']', '',
          '/-- the same for the integrals of AutoNuc.lean -/',
          'def spinorV : List (String × SpKind × Nat × Nat) := [',
          ',\n'.join('  ("%s", ⟨%s, %s⟩, %d, %d)' % (n, b(k[0]), b(k[1]), e, t) for n, k, e, t in nspins) + ']', '',
          'end Verif.Model.Auto', '']
    open(OUTSP, 'w').write('\n'.join(sp))
    hdr = ['import Verif.Model.Nuc', '',
           '/-! Generated by tools/autocode.py from src/autocode: the one-electron integrals evaluated with `int1e_type` 1 (the',
           'potential of one charge) and 2 (of all the nuclei), except `int1e_a01gp`.  As in Auto1e.lean; the',
           'products are summed over the roots. -/',
           'namespace Verif.Model.AutoNuc', 'open Verif.Model', '']
    ftr = ['/-- all of them: name, whether the potential is that of the nuclei (`int1e_type` 2), the integral -/',
           'def allV : List (String × Bool × Gen1e) := [',
           ',\n'.join('  ("%s", %s, %s)' % (n, b(t), n) for n, t, _ in nnames) + ']', '',
           '/-- those whose wrapper returns zeros when both shells are the same (`envs.shls[0] == envs.shls[1]`) -/',
           'def shortcutV : List String := [' + ', '.join('"%s"' % n for n, _, s in nnames if s) + ']', '',
           'end Verif.Model.AutoNuc', '']
    open(OUTNUC, 'w').write('\n'.join(hdr + nout + ftr))
    print(len(names), 'integrals', len(nnames), 'with a potential; without', skipped)
main()
main2()
def parse31(name, lines, start):
    """body of CINTgout1e_int3c1e_*, of src/autocode/int3c1e.c or src/cint3c1e_a.c"""
    i = start
    steps, prods, comps, ends = [], [], {}, {}
    phase = 0; auto = False
    while True:
        l = lines[i].strip(); i += 1
        while l.startswith('s[') and not l.endswith(';'):
            l += ' ' + lines[i].strip(); i += 1
        if l in ('double *g, FINT *idx, CINTEnvVars *envs, FINT gout_empty) {', 'FINT nf = envs->nf;', 'FINT ix, iy, iz, n;', 'double *g0 = g;',
                 'for (n = 0; n < nf; n++) {', 'double s;'): continue
        if l.startswith('//') or re.fullmatch(r'double s\[\d+\];', l): continue
        m = re.fullmatch(r'double \*g(\d+) = g(\d+) +\+ envs->g_size \* 3;', l)
        if m:
            if int(m[1]) != int(m[2])+1: err('pointer %s' % l)
            continue
        m = re.fullmatch(r'G1E_(D_|R_)([IJK])\(g(\d+), g(\d+), envs->i_l(?:\+(\d))?, envs->j_l(?:\+(\d))?, envs->k_l(?:\+(\d))?\);', l)
        if m:
            steps.append(({'D_': '.d', 'R_': '.own'}[m[1]], 'IJK'.index(m[2]), int(m[3]), int(m[4]), int(m[5] or 0), int(m[6] or 0), int(m[7] or 0))); continue
        m = re.fullmatch(r'i([xyz]) = idx\[(\d)\+n\*3\];', l)
        if m:
            if 'xyz'[int(m[2])] != m[1]: err(l)
            continue
        m = re.fullmatch(r's\[(\d+)\] = \+ g(\d+)\[ix\+0\]\*g(\d+)\[iy\+0\]\*g(\d+)\[iz\+0\];', l)
        if m:
            auto = True
            if int(m[1]) != len(prods): err(l)
            prods.append((int(m[2]), int(m[3]), int(m[4]))); continue
        m = re.fullmatch(r's(?:\[(\d+)\])? ?(\+?=) (.*);', l)
        if m and not auto:
            k = int(m[1] or 0)
            if (m[2] == '=') != (k not in comps): err(l)
            comps.setdefault(k, [])
            rest = m[3]
            if rest[0] == '(' and rest[-1] == ')': rest = rest[1:-1]
            for t in re.split(r' *\+(?= ?(?:\d\*)?g)', rest):
                t = re.fullmatch(r' ?(?:(\d)\*)?g(\d+)\[ix(?:\+0)?\]\*g(\d+)\[iy(?:\+0)?\]\*g(\d+)\[iz(?:\+0)?\](?: \* (\d))?', t)
                if not t: err(l)
                comps[k].append((int(t[1] or 1) * int(t[5] or 1), [], len(prods)))
                prods.append((int(t[2]), int(t[3]), int(t[4])))
            continue
        if l == 'if (gout_empty) {': phase = 1; continue
        if l == '} else {': phase = 2; continue
        m = re.fullmatch(r'gout\[n(?:\*(\d+)(?:\+(\d+))?)?\] ?(\+?=) s(?:\[(\d+)\])?;', l)
        if m and not auto:
            if (m[2] or '0') != (m[4] or '0') or int(m[1] or 1) != len(comps) or (m[3] == '=') != (phase == 1): err(l)
            ends.setdefault(phase, []).append(int(m[2] or 0)); continue
        m = re.fullmatch(r'gout\[n\*(\d+)\+(\d+)\] (\+?=) (.*);', l)
        if m and auto:
            if (m[3] == '=') != (phase == 1): err(l)
            terms = []; pos = 0; rest = m[4].strip()
            for t in re.finditer(r'\s*([+-]) ?s\[(\d+)\]', rest):
                if t.start() != pos: err(l)
                pos = t.end()
                terms.append((1 if t[1] == '+' else -1, [], int(t[2])))
            if pos != len(rest): err(l)
            k = int(m[2])
            if phase == 1: comps[k] = terms
            elif comps[k] != terms: err(l)
            ends.setdefault(phase, []).append(k)
            if phase == 2 and int(m[1]) != len(comps): err(l)
            continue
        if l == '}}}': break
        if l == '}':
            if lines[i-1] == '}': break
            continue
        err('%s: unknown line %r' % (name, l))
    if ends[1] != list(range(len(comps))) or ends[2] != ends[1]: err(name)
    return steps, prods, [comps[k] for k in range(len(comps))], i

def main31():
    out, names = [], []
    for base in ('autocode/int3c1e.c', 'cint3c1e_a.c'):
        lines = open(SRC + '../' + base).read().split('\n')
        text = '\n'.join(lines)
        for k, l in enumerate(lines):
            m = re.match(r'static void CINTgout1e_(int3c1e_\w+)\(double', l)
            if not m: continue
            name = m[1]
            ngs, typs = set(), set()
            m = re.search(r'void %s_optimizer\(.*?\n(.*?)\n}' % name, text, re.S)
            ngs.add(re.search(r'FINT ng\[\] = \{(.*?)\};', m[1])[1])
            for kind in ('cart', 'sph'):
                b = re.search(r'CACHE_SIZE_T %s_%s\(.*?\n}' % (name, kind), text, re.S)[0]
                ngs.add(re.search(r'FINT ng\[\] = \{(.*?)\};', b)[1])
                if 'common_factor' in b or 'shls[0]' in b: err(name)
                if not re.search(r'envs.f_gout = &CINTgout1e_%s;' % name, b): err(name + ' f_gout')
                if 'CINTinit_int3c1e_EnvVars(&envs, ng, shls, atm, natm, bas, nbas, env);' not in b: err(name)
                typs.add(re.search(r'return CINT3c1e_drv\(out, dims, &envs, opt, cache, &c2s_%s_3c1e, (\d), 0\);' % kind, b)[1])
            if len(ngs) != 1 or len(typs) != 1: err(name)
            ng = [int(x) for x in ngs.pop().split(',')]
            l0 = next(j for j, x in enumerate(lines) if x.startswith('CACHE_SIZE_T %s_cart(' % name)) + 1
            steps, prods, comps, end = parse31(name, lines, k+1)
            if ng[5]*ng[7] != len(comps): err(name + ' ncomp')
            out.append('/-- %s: src/%s:%d-%d (`CINTgout1e_%s`) and %d ff -/' % (name, base, k+1, end, name, l0))
            out.append('def %s : Gen2e where' % name)
            out.append('  ng := ⟨%d, %d, %d, %d, %d⟩' % (ng[0], ng[1], ng[2], ng[3], 0))
            out.append('  gbits := %d' % ng[4])
            out.append('  nComp := %d' % len(comps))
            out.append('  prog := {')
            st = ['⟨%s, %d, %d, %d, ![%d, %d, %d, 0]⟩' % x for x in steps]
            out.append('    steps := [' + ',\n      '.join(st) + ']')
            pr = ['(%d, %d, %d)' % p for p in prods]
            ls = [', '.join(pr[a:a+9]) for a in range(0, len(pr), 9)]
            out.append('    prods := [' + ',\n      '.join(ls) + ']')
            cs = ['[' + ', '.join('(%d, [%s], %d)' % (c, ', '.join(map(str, g)), s) for c, g, s in t) + ']' for t in comps]
            out.append('    comps := [' + ',\n      '.join(cs) + '] }')
            out.append('')
            names.append((name, {'0': 'false', '1': 'true'}[typs.pop()], ng))
    hdr = ['import Verif.Model.Oper2', '',
           '/-! Generated by tools/autocode.py from src/autocode/int3c1e.c and src/cint3c1e_a.c: the one-electron integrals over three',
           'functions.  As in Auto1e.lean; the intermediates also run over the powers of the third function.  The entry `rys` of `ng` is',
           'not used by these integrals. -/',
           'namespace Verif.Model.Auto3c1e', 'open Verif.Model', '']
    ftr = ['/-- all of them: name, whether `int_type` of the wrappers is INT1E_TYPE_RINV (otherwise INT1E_TYPE_OVLP), the integral -/',
           'def all31 : List (String × Bool × Gen2e) := [',
           ',\n'.join('  ("%s", %s, %s)' % (n, t, n) for n, t, _ in names) + ']', '',
           'end Verif.Model.Auto3c1e', '']
    open(LEAN + 'Auto3c1e.lean', 'w').write('\n'.join(hdr + out + ftr))
    print(names)
main31()
