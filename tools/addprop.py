#!/usr/bin/env python3
"""addprop.py ID TITLE STATEMENT QUANTIFIER WHY ANCHOR... : append a property."""
import json, sys
i, t, s, q, w, *a = sys.argv[1:]
p = '/verif/properties.jsonl'
assert all(json.loads(l)['id'] != i for l in open(p))
open(p, 'a').write(json.dumps({'id': i, 'title': t, 'statement': s, 'quantifier': q, 'why_tests_cant': w, 'anchors': a}, ensure_ascii=False) + '\n')
