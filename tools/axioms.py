#!/usr/bin/env python3
"""Prints, for every theorem named in MANIFEST.json, the axioms it depends on (needs a built project)."""
import json, os, re, subprocess, tempfile, collections
root = os.path.dirname(os.path.dirname(os.path.abspath(__file__)))
names = [t for c in json.load(open(root + '/MANIFEST.json'))['claims'] for t in c['theorems']]
f = tempfile.NamedTemporaryFile('w', suffix='.lean', delete=False)
f.write('import Verif\n' + ''.join('#print axioms %s\n' % n for n in names)); f.close()
out = subprocess.run(['lake', 'env', 'lean', f.name], cwd=root + '/lean', capture_output=True, text=True).stdout
res = {}
for m in re.finditer(r"'([^']+)' (does not depend on any axioms|depends on axioms: \[([^\]]*)\])", out):
    ax = tuple(sorted(x.strip() for x in (m.group(3) or '').split(',') if x.strip()))
    res[m.group(1)] = ax
by = collections.defaultdict(list)
for n in names:
    by[res.get(n, ('MISSING',))].append(n.replace('Verif.', '', 1))
lines = []
for ax in sorted(by):
    lines.append('\n**%s** (%d theorems):\n\n%s\n' % (', '.join('`%s`' % a for a in ax) or 'no axioms', len(by[ax]), ', '.join(by[ax])))
open(root + '/AXIOMS.md', 'w').write('# Axioms of every property theorem\n\nGenerated by `tools/axioms.py` from `#print axioms`.\n' + '\n'.join(lines))
print({ax: len(v) for ax, v in by.items()})
