#!/usr/bin/env python3
"""Transcribes the sample loops of /repo/src/private/fnft__akns_fscatter.c into
lean/Verif/Model/AknsTab.lean (statement by statement)."""
import re, sys
from fractions import Fraction as F
src = open('/repo/src/private/fnft__akns_fscatter.c').read().split('\n')
cases, cur, pend, sizes = {}, None, [], None
for ln, l in enumerate(src, 1):
    m = re.search(r'case akns_discretization_(\w+)\s*:', l)
    if m:
        pend.append((m.group(1), ln)); continue
    if re.search(r'^\s*default:', l):
        pend = []; cur = None
    a = re.match(r'\s*(p\d\d)\[(\d+)\]\s*=\s*(.*?);', l)
    s = re.search(r'(e_\w+) = &e_Bstorage\[(\d+)\]', l)
    z = re.search(r'zero_freq_scatter_matrix\((e_\w+), (.*?)eps_t/ deg, q\[i\], r\[i\]\)', l)
    c0 = re.search(r'p\[n\] = 0.0', l)
    if a or s or z or c0:
        if pend:
            cur = pend[-1][0]; cases[cur] = dict(names=[p[0] for p in pend], line=pend[0][1], asg=[], slot={}, sc={}, zero=False); pend = []
        c = cases[cur]; c['end'] = ln
        if a: c['asg'].append(a.groups())
        if s: assert int(s.group(2)) % 3 == 0; c['slot'][s.group(1)] = int(s.group(2)) // 3
        if z: c['sc'][z.group(1)] = F(z.group(2).rstrip('*') or 1)
        if c0: c['zero'] = True
def expr(e, c):
    e = re.sub(r'\b0\.0\b', '0', e)
    for n, v in (('scl', '.e 0 0'), ('Q', '.e 0 1'), ('R', '.e 0 2')):
        e = re.sub(r'\b%s\b' % n, v, e)
    e = re.sub(r'(e_\w+)\[(\d)\]', lambda m: '.e %d %s' % (c['slot'][m.group(1)], m.group(2)), e)
    e = re.sub(r'p(\d)(\d)\[(\d+)\]', lambda m: '.p %d %s' % (2*(int(m.group(1))-1)+int(m.group(2))-1, m.group(3)), e)
    e = re.sub(r'\s*([*/])\s*', r' \1 ', e)
    return e.strip()
out = ['import Verif.Model.AknsTypes', '/-!', '# Sample loops of `akns_fscatter`',
 '', 'Generated from /repo/src/private/fnft__akns_fscatter.c by tools/gen_fscatter.py: every statement', '`pXY[k] = rhs;` of every loop body, in program order.', '-/', 'namespace FNFT', '']
def rat(q): return '%d' % q if q.denominator == 1 else '%d / %d' % (q.numerator, q.denominator)
for n, c in cases.items():
    if n == '2SPLIT2_MODAL':
        doc = ' `e 0 0`, `e 0 1`, `e 0 2` stand for the local variables `scl`, `Q`, `R`.'
    else: doc = ''
    sc = sorted(c['slot'], key=lambda k: c['slot'][k]); assert [c['slot'][k] for k in sc] == list(range(len(sc))) and set(sc) == set(c['sc'])
    out.append('/-- `case %s` of `akns_fscatter`, fnft__akns_fscatter.c:%d-%d.%s -/' % (', '.join(c['names']), c['line'], c['end'], doc))
    out.append('def tab%s : Tab where\n  zero := %s\n  scales := [%s]\n  asg := [' % (n[1:].replace('SPLIT', ''), str(c['zero']).lower(), ', '.join(rat(c['sc'][k]) for k in sc)))
    L = []
    for p, k, e in c['asg']:
        t = 2*(int(p[1])-1)+int(p[2])-1
        L.append('    ⟨%d, %s, %s⟩' % (t, k, expr(e, c)))
    out.append(',\n'.join(L) + ']'); out.append('')
out.append('end FNFT')
open('/verif/lean/Verif/Model/AknsTab.lean', 'w').write('\n'.join(out) + '\n')
