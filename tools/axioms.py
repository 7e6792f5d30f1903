#!/usr/bin/env python3
"""Writes section 6 of DESIGN.md: the axioms of each theorem named in MANIFEST.json (run in /verif after `lake build`)."""
import json, subprocess, re
m = json.load(open('/verif/MANIFEST.json'))
names = [t for c in m['claims'] for t in c['theorems']]
src = 'import Verif\n' + ''.join(f'#print axioms {n}\n' for n in names)
open('/tmp/ax.lean', 'w').write(src)
r = subprocess.run(['lake', 'env', 'lean', '/tmp/ax.lean'], cwd='/verif/lean', capture_output=True, text=True)
txt = re.sub(r'\n\s+', ' ', r.stdout)
groups = {}
seen = 0
for l in txt.splitlines():
    a = re.match(r"'(.*)' depends on axioms: \[(.*)\]", l)
    b = re.match(r"'(.*)' does not depend on any axioms", l)
    if a: groups.setdefault(a[2], []).append(a[1]); seen += 1
    elif b: groups.setdefault('', []).append(b[1]); seen += 1
    else: print('??', l)
assert seen == len(names), (seen, len(names))
out = '## 6. Axioms per theorem\n\nFrom `#print axioms` (tools/axioms.py).\n'
for k in sorted(groups):
    out += f"\n{('Axioms: ' + k) if k else 'No axioms'}:\n\n" + ''.join(f'* `{n}`\n' for n in groups[k])
p = '/verif/DESIGN.md'
s = open(p).read()
open(p, 'w').write(s[:s.index('## 6. Axioms per theorem')] + out)
print({k: len(v) for k, v in groups.items()})
