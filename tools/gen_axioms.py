#!/usr/bin/env python3
"""Writes AXIOMS.md: for every theorem named in MANIFEST.json the axioms it depends on (`#print axioms`). Run after `lake build` in lean/."""
import json, os, re, subprocess, tempfile
root = os.path.dirname(os.path.dirname(os.path.abspath(__file__)))
claims = json.load(open(f'{root}/MANIFEST.json'))['claims']
names = [t for c in claims for t in c['theorems']]
src = 'import Verif\n' + ''.join(f'#print axioms {n}\n' for n in names)
with tempfile.NamedTemporaryFile('w', suffix='.lean', delete=False) as f:
    f.write(src)
out = subprocess.run(['lake', 'env', 'lean', f.name], cwd=f'{root}/lean', capture_output=True, text=True).stdout
os.unlink(f.name)
ax = {}
for m in re.finditer(r"'([^']+)' depends on axioms: \[([^\]]*)\]", out):
    ax[m[1]] = sorted(a.strip() for a in m[2].split(','))
for m in re.finditer(r"'([^']+)' does not depend on any axioms", out):
    ax[m[1]] = []
missing = [n for n in names if n not in ax]
allowed = {'propext', 'Classical.choice', 'Quot.sound'}
bad = [n for n in names if set(ax.get(n, [])) - allowed]
short = {'propext': 'propext', 'Classical.choice': 'choice', 'Quot.sound': 'Quot.sound'}
lines = ['# Axioms of each claimed theorem', '',
         'Generated by `tools/gen_axioms.py` from `#print axioms`. `choice` is `Classical.choice`; all three are axioms of Lean itself.', '',
         '| property | theorem | axioms |', '|---|---|---|']
for c in claims:
    for t in c['theorems']:
        lines.append(f"| {c['property']} | `{t}` | {', '.join(short.get(a, a) for a in ax.get(t, ['?'])) or 'none'} |")
open(f'{root}/AXIOMS.md', 'w').write('\n'.join(lines) + '\n')
print(len(names), 'theorems; missing', missing, 'beyond the three:', bad)
