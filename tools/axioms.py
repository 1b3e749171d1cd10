#!/usr/bin/env python3
"""Prints, for every theorem of MANIFEST.json, the axioms it depends on; writes AXIOMS.md.  Run after `lake build`."""
import json, re, subprocess, collections
ts = list(dict.fromkeys(t for c in json.load(open('/verif/MANIFEST.json'))['claims'] for t in c['theorems']))
open('/tmp/ax.lean', 'w').write('import Verif\n' + ''.join(f'#print axioms {t}\n' for t in ts))
s = subprocess.run(['lake', 'env', 'lean', '/tmp/ax.lean'], cwd='/verif/lean', capture_output=True, text=True).stdout.replace('\n ', ' ')
d = collections.OrderedDict()
for l in s.split('\n'):
    m = re.match(r"'(.*)' depends on axioms: \[(.*)\]", l)
    if m: d.setdefault(m[2], []).append(m[1]); continue
    m = re.match(r"'(.*)' does not depend", l)
    if m: d.setdefault('no axiom', []).append(m[1])
assert sum(map(len, d.values())) == len(ts), s[-2000:]
out = ['# Axioms of every theorem of MANIFEST.json (output of tools/axioms.py)', '']
for k in sorted(d, key=len):
    out += [f'## {k} ({len(d[k])})', '', ', '.join(f'`{t}`' for t in d[k]), '']
open('/verif/AXIOMS.md', 'w').write('\n'.join(out))
print({k: len(v) for k, v in d.items()})
