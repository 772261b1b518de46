#!/usr/bin/env python3
"""Writes AXIOMS.md: the axioms of every theorem named in MANIFEST.json, as printed by Lean. Run after lake build."""
import json, os, re, subprocess, tempfile
V = os.path.join(os.path.dirname(os.path.abspath(__file__)), '..')
names = []
for c in json.load(open(os.path.join(V, 'MANIFEST.json')))['claims']:
    for t in c['theorems']:
        if t not in names: names.append(t)
src = 'import Verif\n' + ''.join(f'#print axioms {n}\n' for n in names)
f = tempfile.NamedTemporaryFile('w', suffix='.lean', delete=False)
f.write(src); f.close()
out = subprocess.run(['lake', 'env', 'lean', f.name], cwd=os.path.join(V, 'lean'), capture_output=True, text=True).stdout
res = {}
for m in re.finditer(r"'([^']+)' depends on axioms: \[([^\]]*)\]", out):
    res[m.group(1)] = ', '.join(sorted(x.strip() for x in m.group(2).split(',')))
for m in re.finditer(r"'([^']+)' does not depend on any axioms", out):
    res[m.group(1)] = 'none'
groups = {}
for n in names: groups.setdefault(res.get(n, 'UNKNOWN'), []).append(n)
with open(os.path.join(V, 'AXIOMS.md'), 'w') as g:
    g.write('# Axioms of the theorems of MANIFEST.json\n\nGenerated by tools/axioms.py from `#print axioms`.\n')
    for k in sorted(groups, key=lambda k: (len(k), k)):
        g.write(f'\n## {k} ({len(groups[k])})\n\n')
        for n in groups[k]: g.write(f'* {n}\n')
print({k: len(v) for k, v in groups.items()})
