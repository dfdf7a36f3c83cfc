#!/usr/bin/env python3
"""Writes AXIOMS.txt: the axioms of every theorem in MANIFEST.json (needs an up-to-date build in lean/)."""
import json, re, subprocess, collections
m = json.load(open('/verif/MANIFEST.json'))
ths = sorted({t for c in m['claims'] for t in c['theorems']})
open('/tmp/ax.lean', 'w').write("import Verif\n" + "\n".join("#print axioms " + t for t in ths) + "\n")
s = subprocess.run(['lake', 'env', 'lean', '/tmp/ax.lean'], cwd='/verif/lean', capture_output=True, text=True).stdout
out = []; c = collections.Counter()
for mm in re.finditer(r"'(\S+)' (?:depends on axioms: \[([^\]]*)\]|does not depend on any axioms)", s):
    ax = ', '.join(sorted(x.strip() for x in (mm.group(2) or '').split(',') if x.strip())) or 'none'
    out.append((mm.group(1), ax)); c[ax] += 1
assert len(out) == len(ths), (len(out), len(ths), s[-500:])
with open('/verif/AXIOMS.txt', 'w') as f:
    for k, v in c.most_common(): f.write(f"{v} theorems: {k}\n")
    f.write("\n")
    for t, a in out: f.write(f"{t}: {a}\n")
print(c)
