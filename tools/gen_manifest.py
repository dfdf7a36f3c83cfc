#!/usr/bin/env python3
"""Regenerate MANIFEST.json from the theorem names in lean/Verif/Props/*.lean and tools/notes.json."""
import json, re, glob, os
root = os.path.dirname(os.path.dirname(os.path.abspath(__file__)))
notes = json.load(open(os.path.join(root, 'tools/notes.json')))
ids = [json.loads(l)['id'] for l in open(os.path.join(root, 'properties.jsonl'))]
thms = {i: [] for i in ids}
for f in sorted(glob.glob(os.path.join(root, 'lean/Verif/Props/*.lean'))):
    ns = []
    for line in open(f):
        m = re.match(r'namespace (\S+)', line)
        if m: ns.append(m.group(1))
        m = re.match(r'end (\S+)', line)
        if m and ns and ns[-1] == m.group(1): ns.pop()
        m = re.match(r'theorem (((?:C\d\d+_)+)\S*)', line)
        if m:
            for pid in re.findall(r"C\d\d+", m.group(2)):
                thms[pid].append('.'.join(ns + [m.group(1)]))
claims = []
extra = {pid: n.get('also', []) for pid, n in notes.items()}
for i in ids:
    t = thms[i] + extra.get(i, [])
    n = notes.get(i, {})
    status = n.get('status', 'proved' if t else None)
    if not t and status in ('proved', None):
        status = 'partial'
        note = 'not yet proved'
    else:
        note = n.get('note', '')
    claims.append({'property': i, 'status': status, 'theorems': t, 'note': note})
json.dump({'claims': claims}, open(os.path.join(root, 'MANIFEST.json'), 'w'), indent=1)
print({s: sum(c['status'] == s for c in claims) for s in ('proved', 'partial', 'not_applicable')},
      'without theorem:', [c['property'] for c in claims if not c['theorems']])
