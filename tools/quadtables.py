#!/usr/bin/env python3
"""Generate lean/Verif/Model/QuadratureTables.lean from the tables of lib/fiber/quadrature (units: 1e-16 and 1e-15)."""
import re, os
from fractions import Fraction as F
Q = '/repo/lib/fiber/quadrature/'
out = []
def chunks(fn, name):
    s = open(Q + fn).read()
    m = re.search(r'%s\[[^\]]*\] = \{(.*?)\};' % name, s, re.S)
    start = s[:m.start()].count('\n') + 1
    end = s[:m.end()].count('\n') + 1
    res = []
    for part in re.split(r'(?=// (?:Coordinates|Weights) for)', m.group(1)):
        body = re.sub(r'//.*', '', part)
        xs = [x.strip() for x in body.split(',') if x.strip()]
        if xs: res.append(xs)
    return res, start, end
def emit(lean, fn, name, unit, doc):
    cs, a, b = chunks(fn, name)
    names = []
    for i, c in enumerate(cs):
        vals = []
        for x in c:
            v = F(x) * unit
            assert v.denominator == 1, x
            vals.append(str(v.numerator))
        nm = f'{lean}{i + 1}' if len(cs) > 1 else lean
        names.append(nm)
        cite = f'{doc} ({fn}:{a}-{b})' + (f', part {i + 1}' if len(cs) > 1 else '') + '.'
        lines, cur = [], ''
        for v in vals:
            if len(cur) + len(v) > 120:
                lines.append(cur); cur = ''
            cur += v + ', '
        lines.append(cur.rstrip(', '))
        out.append(f'/-- {cite} -/\ndef {nm} : List Int := [\n  ' + '\n  '.join(lines) + ']\n')
    if len(cs) > 1:
        out.append(f'/-- {doc} ({fn}:{a}-{b}). -/\ndef {lean} : List Int :=\n  ' + ' ++ ('.join(names) + ')' * (len(names) - 1) + '\n')
emit('gTriaAddress', 'gausstria.hpp', 'gTriaAddress', 1, '`gTriaAddress`')
emit('gTriaPointsPerOrder', 'gausstria.hpp', 'gTriaPointsPerOrder', 1, '`gTriaPointsPerOrder`')
emit('gpTria', 'gausstria.hpp', 'gpTria', 10**16, '`gpTria`, in units of 1e-16')
emit('gwTria', 'gausstria.hpp', 'gwTria', 10**16, '`gwTria`, in units of 1e-16')
emit('gTensorAddress', 'gausstensor.hpp', 'gTensorAddress', 1, '`gTensorAddress`')
emit('gpTensor', 'gausstensor.hpp', 'gpTensor', 10**15, '`gpTensor`, in units of 1e-15')
emit('gwTensor', 'gausstensor.hpp', 'gwTensor', 10**15, '`gwTensor`, in units of 1e-15')
head = '''/-
Generated by tools/quadtables.py: the tables of lib/fiber/quadrature/gausstria.hpp and gausstensor.hpp.  The decimal literals are
taken at their decimal values (in the code each is rounded to the nearest double).
-/
set_option maxRecDepth 10000
namespace Verif.SingleQuad

'''
here = os.path.dirname(os.path.abspath(__file__))
open(os.path.join(here, '../lean/Verif/Model/QuadratureTables.lean'), 'w').write(head + '\n'.join(out) + '\nend Verif.SingleQuad\n')
