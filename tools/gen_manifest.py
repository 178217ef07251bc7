#!/usr/bin/env python3
"""Regenerate MANIFEST.json and the import list from the theorem names in lean/Verif/Props."""
import re, json, glob, os, collections
root = os.path.dirname(os.path.dirname(os.path.abspath(__file__)))
notes = json.load(open(os.path.join(root, 'tools', 'notes.json')))
thms = collections.OrderedDict()
for f in sorted(glob.glob(root + '/lean/Verif/Props/*.lean')):
    ns = 'Verif.Props'
    for l in open(f):
        m = re.match(r'theorem (C(\d\d+)_\w+)', l)
        if m:
            thms.setdefault('C' + m.group(2), []).append(ns + '.' + m.group(1))
props = [json.loads(l) for l in open(root + '/properties.jsonl')]
claims = []
for p in props:
    i = p['id']
    t = thms.get(i, [])
    if not t and i not in notes: continue
    part = any(x.endswith('_partial') or 'negation' in x for x in t)
    st = 'not_applicable' if not t else ('partial' if part else 'proved')
    note = notes.get(i, '')
    if not note:
        note = 'proved for the model, all inputs and histories as stated' if st == 'proved' else ''
    claims.append({'property': i, 'status': st, 'theorems': t, 'note': note})
json.dump({'claims': claims}, open(root + '/MANIFEST.json', 'w'), indent=1, ensure_ascii=False)
mods = []
for d in ['Model', 'Spec', 'Proofs', 'Props']:
    for f in sorted(glob.glob(f'{root}/lean/Verif/{d}/*.lean')):
        mods.append(f'import Verif.{d}.{os.path.basename(f)[:-5]}')
open(root + '/lean/Verif.lean', 'w').write('\n'.join(mods) + '\n')
missing = [p['id'] for p in props if p['id'] not in [c['property'] for c in claims]]
print('missing', missing)
print({s: sum(c['status'] == s for c in claims) for s in ['proved', 'partial', 'not_applicable']})
