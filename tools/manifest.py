#!/usr/bin/env python3
"""Writes MANIFEST.json; refuses names that no Lean module declares, and properties without an entry."""
import json, re, glob, sys
ROOT = __file__.rsplit('/', 2)[0]
C = {}
def c(pid, status, theorems, note=""):
    C[pid] = (status, theorems.split(), note)
exec(open(ROOT + '/tools/claims.py').read())
src = '\n'.join(open(f).read() for f in glob.glob(ROOT + '/lean/Verif/*.lean'))
decl = set(re.findall(r'^(?:theorem|lemma)\s+([^\s:({\[]+)', src, re.M))
bad = [t for s, ts, n in C.values() for t in ts if t not in decl]
props = [json.loads(l)['id'] for l in open(ROOT + '/properties.jsonl') if l.strip()]
missing = [p for p in props if p not in C]
extra = [p for p in C if p not in props]
print('unknown theorems', bad, 'missing properties', missing, 'extra', extra, file=sys.stderr)
out = [{"property": p, "status": C[p][0], "theorems": ["Sopht." + t for t in C[p][1]], "note": C[p][2]} for p in props if p in C]
json.dump({"claims": out}, open(ROOT + '/MANIFEST.json', 'w'), indent=1)
sys.exit(1 if bad else 0)
