"""Writes lean/Verif/FFT/TableData.lean from /repo/pythonref/fft_constants.py (read as text; every number times 10^17)."""
import re
from decimal import Decimal
src = open('/repo/pythonref/fft_constants.py').read()
out = ['/-! The tables of pythonref/fft_constants.py (lines 10-2108), every decimal times 10^17; written by tools/mkroots.py. -/\n', 'namespace Verif.FFT.Table\n', '/-- Signs. -/\ndef p (x : Nat) : Int := x\ndef m (x : Nat) : Int := -x\n']
for k in range(1, 11):
    name = 'phi%d_roots' % (2 ** (k + 1))
    m = re.search(name + r' = \[(.*?)\]', src, re.S)
    ents = [e.strip() for e in m.group(1).split(',') if e.strip()]
    vals = []
    for e in ents:
        mm = re.fullmatch(r'(-?\s*[0-9.]+)\s*([+-])\s*([0-9.]+)j', e)
        if mm:
            a, b = Decimal(mm.group(1).replace(' ', '')), Decimal(mm.group(2) + mm.group(3))
        else:
            mm = re.fullmatch(r'(-?[0-9.]+)j', e)
            a, b = Decimal(0), Decimal(mm.group(1))
        A, B = a * 10 ** 17, b * 10 ** 17
        assert A == int(A) and B == int(B), e
        vals.append((int(A), int(B)))
    assert len(vals) == 2 ** k, (k, len(vals))
    fmt = lambda x: ('p %d' if x >= 0 else 'm %d') % abs(x)
    parts = []
    for c in range(0, len(vals), 64):
        ch = vals[c:c + 64]
        nm = 't%d' % k if len(vals) <= 64 else 't%d_%d' % (k, c // 64)
        parts.append(nm)
        out.append('def %s : List (Int × Int) := [' % nm)
        for i in range(0, len(ch), 4):
            out.append('  ' + ', '.join('(%s, %s)' % (fmt(v[0]), fmt(v[1])) for v in ch[i:i + 4]) + (',' if i + 4 < len(ch) else ']'))
        out.append('')
    if len(parts) > 1:
        out.append('def t%d : List (Int × Int) := %s' % (k, ' ++ '.join(parts)))
        out.append('')
out.append('end Verif.FFT.Table')
open('/verif/lean/Verif/FFT/TableData.lean', 'w').write('\n'.join(out) + '\n')
