#!/usr/bin/env python3
"""Transcribes the sample loops of /repo/src/private/fnft__manakov_fscatter.c into
lean/Verif/Model/ManTab.lean (statement by statement)."""
import re
from fractions import Fraction as F
src = open('/repo/src/private/fnft__manakov_fscatter.c').read().split('\n')
start = [i for i, l in enumerate(src) if 'switch (discretization)' in l][0]
cases, cur = [], None
for i in range(start, len(src)):
    l = src[i].split('//')[0]
    m = re.match(r'\s*case manakov_discretization_(\w+):', l)
    if re.match(r'\s*default:', l): break
    if m:
        if cur is None or cur['body']: cur = dict(names=[], body=[], line=i + 1); cases.append(cur)
        cur['names'].append(m.group(1)); continue
    if cur is not None:
        cur['body'].append(l)
        if 'break;' in l: cur['end'] = i + 1
def scale(e):
    v = eval(re.sub(r'eps_t', '1', re.sub(r'\b(\d+)\b', r'F(\1)', e.replace('eps_t', 'F(1)').replace('F(1)', 'EPS'))).replace('EPS', 'F(1)'), {'F': F})
    return F(v)
def rat(q): return '%d' % q if q.denominator == 1 else ('%d / %d' % (q.numerator, q.denominator))
out = ['import Verif.Model.AknsTypes', '/-!', '# Sample loops of `manakov_fscatter`', '',
 'Generated from /repo/src/private/fnft__manakov_fscatter.c by tools/gen_manakov.py: every statement',
 '`pXY[k] = rhs;` of every loop body, in program order. `⟨t, k, rhs⟩` stands for `pXY[k] = rhs` with',
 '`t = 3*(X-1)+(Y-1)`; `.e s c` is entry `c` of the `s`-th matrix of the body: the matrices in `e_Bstorage`',
 'in the order in which they are laid out, followed by `E1` and `E2`.', '-/', 'namespace FNFT', '']
for c in cases:
    txt = '\n'.join(c['body'])
    sto = re.findall(r'(e_\w+) = &e_Bstorage\[(\d+)\]', txt)
    mats = dict(re.findall(r'zero_freq_scatter_matrix\((\w+), ([^,]*),', txt))
    slot = {n: int(o) // 9 for n, o in sto}
    assert all(int(o) % 9 == 0 for _, o in sto) and sorted(slot.values()) == list(range(len(slot))) and set(slot) == set(mats)
    scales = [rat(scale(mats[n])) for n in sorted(slot, key=slot.get)]
    slot['E1'] = len(scales); slot['E2'] = len(scales) + 1
    L = []
    for st in txt.split(';'):
        st = ' '.join(st.split()).lstrip('{} ')
        m = re.match(r'p(\d)(\d)\[(\d+)\] = (.*)$', st)
        if m:
            e = re.sub(r'\b0\.0\b', '0', m.group(4))
            e = re.sub(r'\b(e_\w+|E1|E2)\[(\d)\]', lambda x: '.e %d %s' % (slot[x.group(1)], x.group(2)), e)
            L.append('    ⟨%d, %s, %s⟩' % (3 * (int(m.group(1)) - 1) + int(m.group(2)) - 1, m.group(3), e))
    out.append('/-- `case %s` of `manakov_fscatter`, fnft__manakov_fscatter.c:%d-%d. -/' % (', '.join(c['names']), c['line'], c['end']))
    out.append('def manTab%s : Tab where\n  zero := false\n  scales := [%s]\n  asg := [' % (c['names'][-1].replace('2SPLIT', ''), ', '.join(scales)))
    out.append(',\n'.join(L) + ']'); out.append('')
out.append('end FNFT')
open('/verif/lean/Verif/Model/ManTab.lean', 'w').write('\n'.join(out) + '\n')
