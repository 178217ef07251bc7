#!/usr/bin/env python3
"""seeded/LOG.jsonl from the results of tools/mutate.py (arguments: result files) and seeded/tightened.json."""
import json, os, sys
root = os.path.dirname(os.path.dirname(os.path.abspath(__file__)))
tj = os.path.join(root, 'seeded', 'tightened.json')
tight = json.load(open(tj)) if os.path.exists(tj) else {}
last = {}
for f in sys.argv[1:]:
    for l in open(f):
        r = json.loads(l); last[r['id']] = r
with open(os.path.join(root, 'seeded', 'LOG.jsonl'), 'w') as o:
    for i, r in last.items():
        if 'error' in r: continue
        br = [b for b in r['breaks'] if b]
        o.write(json.dumps({
            'id': i, 'file': 'lean/Verif/%s.lean' % r['file'], 'definition': r['def'], 'edit': r['edit'],
            'claim_broken': r['claim'] if br else r['claim'] + ' (no stated claim becomes false: equivalent or unreachable edit)',
            'properties_broken': br, 'theorems_failed': r['failed'], 'missed': r['missed'],
            'tightened': tight.get(i, [])}, ensure_ascii=False) + '\n')
print(len(last), [i for i in last if 'error' in last[i]], [i for i in last if last[i].get('missed')])
