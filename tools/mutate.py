#!/usr/bin/env python3
"""Mutation harness (scratch copies only, never edits /verif/lean).

usage: mutate.py MUTANTS.json OUT.jsonl [jobs]
Each mutant: {id, file (module path below lean/Verif), old, new, def, edit, claim, breaks: [Cnn...]}.
The modules that depend on the edited one are concatenated into one scratch file, so that Lean carries on
after errors; a theorem counts as failed if its own proof fails or it rests on a lemma whose proof failed.
"""
import json, os, re, subprocess, sys, collections
from concurrent.futures import ThreadPoolExecutor
ROOT = '/verif/lean'
mods = {}
for d, _, fs in os.walk(ROOT + '/Verif'):
    for f in fs:
        if f.endswith('.lean'):
            p = os.path.join(d, f)
            mods[os.path.relpath(p, ROOT)[:-5].replace('/', '.')] = open(p).read()
imps = {m: re.findall(r'^import (\S+)', s, re.M) for m, s in mods.items()}
order, seen = [], set()
def visit(m):
    if m in seen or m not in mods: return
    seen.add(m)
    for i in imps[m]: visit(i)
    order.append(m)
for m in sorted(mods): visit(m)
def dependents(m0):
    dep = {m0}
    for m in order:
        if any(i in dep for i in imps[m]): dep.add(m)
    return [m for m in order if m in dep]
allthms = re.findall(r'^theorem (C\d\d\w*)', '\n'.join(s for m, s in mods.items() if m.startswith('Verif.Props')), re.M)
TAIL = '''
open Lean in
run_cmd do
  let env ← getEnv
  for n in [%s] do
    let nm := `Verif.Props ++ Name.mkSimple n
    if !env.contains nm then IO.println s!"FAIL {n}"
    else
      let ax ← collectAxioms nm
      if ax.contains ``sorryAx then IO.println s!"FAIL {n}"
  IO.println "DONE"
'''
def run(mu):
    m0 = 'Verif.' + mu['file'].replace('/', '.')
    src = mods[m0]
    if 'full' in mu:
        src = mu.pop('full')
    elif src.count(mu['old']) != mu.get('count', 1):
        return dict(mu, error='pattern occurs %d times' % src.count(mu['old']))
    else:
        src = src.replace(mu['old'], mu['new'])
    dep = dependents(m0)
    ext = []
    for m in dep:
        for i in imps[m]:
            if i not in dep and i not in ext: ext.append(i)
    thms = [t for m in dep for t in re.findall(r'^theorem (C\d\d\w*)', mods[m], re.M)]
    out = ['import Lean.Elab.Command', 'import Lean.Util.CollectAxioms'] + ['import ' + i for i in ext]
    starts = []
    def emit(text):
        out.extend(text.split('\n'))
    for m in dep:
        s = src if m == m0 else mods[m]
        s = re.sub(r'^import .*$', '', s, flags=re.M)
        starts.append((len(out) + 1, m))
        emit('section'); emit(s); emit('end')
    starts.append((len(out) + 1, 'TAIL'))
    emit(TAIL % ', '.join('"%s"' % t for t in thms))
    fn = '/tmp/mut/%s.lean' % mu['id']
    open(fn, 'w').write('\n'.join(out))
    try:
        p = subprocess.run(['lake', 'env', 'lean', '-DmaxErrors=100000', fn], cwd=ROOT, capture_output=True, text=True, timeout=2400)
    except subprocess.TimeoutExpired:
        return dict(mu, error='timeout')
    open(fn + '.out', 'w').write(p.stdout + p.stderr)
    def where(l):
        w = None
        for s, m in starts:
            if s <= l: w = m
        return w
    errs = [int(x) for x in re.findall(r'^\S+?:(\d+):\d+: error', p.stdout, re.M)]
    bymod = collections.Counter(where(l) for l in errs)
    failed = re.findall(r'^FAIL (\S+)', p.stdout, re.M)
    r = dict(mu)
    if bymod.get(m0) : r['error'] = 'mutated module itself fails'
    if 'DONE' not in p.stdout: r['error'] = 'lean did not finish'
    if bymod.get('TAIL'): r['error'] = 'tail fails'
    r['failed'] = failed
    r['first_errors'] = dict(bymod)
    r['missed'] = [b for b in mu['breaks'] if not any(t.startswith(b + '_') for t in failed)]
    return r
if __name__ == '__main__':
    mus = json.load(open(sys.argv[1]))
    done = set()
    if os.path.exists(sys.argv[2]):
        done = {json.loads(l)['id'] for l in open(sys.argv[2]) if 'error' not in json.loads(l)}
    todo = [m for m in mus if m['id'] not in done]
    jobs = int(sys.argv[3]) if len(sys.argv) > 3 else 2
    with ThreadPoolExecutor(jobs) as ex:
        for r in ex.map(run, todo):
            with open(sys.argv[2], 'a') as f: f.write(json.dumps(r) + '\n')
            print(r['id'], 'ERR ' + r['error'] if 'error' in r else '', 'missed', r.get('missed'), 'failed', len(r.get('failed', [])), r.get('first_errors'), flush=True)
