#!/usr/bin/env python3
"""Write AXIOMS.md: the axioms each theorem named in MANIFEST.json depends on. Run after `lake build`."""
import json, os, re, subprocess, tempfile

root = os.path.dirname(os.path.dirname(os.path.abspath(__file__)))
names = [t for c in json.load(open(root + '/MANIFEST.json'))['claims'] for t in c['theorems']]
with tempfile.NamedTemporaryFile('w', suffix='.lean', delete=False) as f:
    f.write('import Verif\n' + ''.join(f'#print axioms {n}\n' for n in names))
out = subprocess.run(['lake', 'env', 'lean', f.name], cwd=root + '/lean', capture_output=True, text=True).stdout
out = re.sub(r'\s+', ' ', out)
rows, bad = [], 0
for n in names:
    m = re.search(r"'" + re.escape(n) + r"' (?:depends on axioms: \[([^\]]*)\]|(does not depend on any axioms))", out)
    ax = m.group(1) or 'none'
    bad += bool(set(ax.split(', ')) - {'propext', 'Classical.choice', 'Quot.sound', 'none'})
    rows.append(f'| `{n}` | {ax} |')
with open(root + '/AXIOMS.md', 'w') as f:
    f.write('# Axioms of each property theorem\n\nWritten by `tools/axioms.py` from `#print axioms`.\n\n'
            '| theorem | axioms |\n|---|---|\n' + '\n'.join(rows) + '\n')
print(len(names), 'theorems,', bad, 'with other axioms')
