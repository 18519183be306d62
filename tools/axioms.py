#!/usr/bin/env python3
"""Writes AXIOMS.md: the axioms of every theorem named in MANIFEST.json."""
import json, os, re, subprocess, tempfile

root = os.path.dirname(os.path.dirname(os.path.abspath(__file__)))
claims = json.load(open(os.path.join(root, 'MANIFEST.json')))['claims']
names = [t for c in claims for t in c['theorems']]
with tempfile.NamedTemporaryFile('w', suffix='.lean', delete=False) as f:
    f.write('import Verif\n' + ''.join('#print axioms %s\n' % n for n in names))
out = subprocess.run(['lake', 'env', 'lean', f.name], cwd=os.path.join(root, 'lean'),
                     capture_output=True, text=True).stdout
os.unlink(f.name)
axioms = {}
for m in re.finditer(r"'(\S+)' depends on axioms: \[([^\]]*)\]", out):
    axioms[m.group(1)] = ', '.join(x.strip() for x in m.group(2).split(','))
for m in re.finditer(r"'(\S+)' does not depend on any axioms", out):
    axioms[m.group(1)] = 'none'
with open(os.path.join(root, 'AXIOMS.md'), 'w') as f:
    f.write('# Axioms of the theorems in MANIFEST.json\n\nGenerated by tools/axioms.py.\n\n')
    for c in claims:
        f.write('## %s (%s)\n\n' % (c['property'], c['status']))
        for t in c['theorems']:
            f.write('* `%s`: %s\n' % (t, axioms.get(t, '?')))
        f.write('\n')
