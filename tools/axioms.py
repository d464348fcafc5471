#!/usr/bin/env python3
"""Writes AXIOMS.md: the axioms of every theorem named in MANIFEST.json (run after lake build)."""
import json, re, subprocess, os
root = os.path.dirname(os.path.dirname(os.path.abspath(__file__)))
claims = json.load(open(root + '/MANIFEST.json'))['claims']
src = 'import Verif\n' + ''.join(f'#print axioms {t}\n' for c in claims for t in c['theorems'])
open('/tmp/axioms.lean', 'w').write(src)
out = subprocess.run(['lake', 'env', 'lean', '/tmp/axioms.lean'], cwd=root + '/lean', capture_output=True, text=True).stdout
out = re.sub(r'\n\s+', ' ', out)
rows = re.findall(r"'([^\n]+?)' (?:depends on axioms: \[(.*?)\]|does not depend on any axioms)", out)
ax = {n: a or 'none' for n, a in rows}
with open(root + '/AXIOMS.md', 'w') as f:
    f.write('# Axioms of the property theorems\n\nGenerated by `tools/axioms.py` from `#print axioms`.\n\n| theorem | axioms |\n|---|---|\n')
    for c in claims:
        for t in c['theorems']:
            f.write(f'| {t} | {ax[t]} |\n')
print(len(ax), set(ax.values()))
