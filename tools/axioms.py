#!/usr/bin/env python3
"""Rewrites the axiom section of DESIGN.md from `#print axioms` of every theorem in MANIFEST.json (run after a build)."""
import json, re, subprocess
ROOT = __file__.rsplit('/', 2)[0]
ths = []
for c in json.load(open(ROOT + '/MANIFEST.json'))['claims']:
    for t in c['theorems']:
        if t not in ths: ths.append(t)
open('/tmp/ax.lean', 'w').write('import Verif\n' + ''.join(f'#print axioms {t}\n' for t in ths))
out = subprocess.run(['lake', 'env', 'lean', '/tmp/ax.lean'], cwd=ROOT + '/lean', capture_output=True, text=True).stdout
out = re.sub(r'\n\s+', ' ', out)
g = {}
for m in re.finditer(r"^'Sopht\.(\S+)' (does not depend on any axioms|depends on axioms: \[(.*?)\])", out, re.M):
    g.setdefault(m.group(3) or 'none', []).append(m.group(1))
lines = []
n = sum(map(len, g.values()))
assert n == len(ths), (n, len(ths))
for k in sorted(g, key=lambda k: len(g[k])):
    if k.count(',') == 2: lines.append(f'* `{k}`: the other {len(g[k])} of the {n} theorems named in MANIFEST.json.')
    else: lines.append(f'* `{k}` only: ' + ', '.join(sorted(g[k])) + '.')
p = ROOT + '/DESIGN.md'
s = open(p).read()
a, b = s.index('<!-- axioms -->'), s.index('<!-- /axioms -->')
open(p, 'w').write(s[:a] + '<!-- axioms -->\n' + '\n'.join(lines) + '\n' + s[b:])
