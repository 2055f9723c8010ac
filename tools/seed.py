#!/usr/bin/env python3
"""Seeded-bug testing. For each edit in seeded/mutants.py: apply it to a scratch copy of lean/, build, and append
one line to seeded/LOG.jsonl with the theorems whose proofs fail (and the claim theorems in modules that could
not be built because they import a module with a failed proof).
usage: seed.py [id ...]"""
import json, os, re, shutil, subprocess, sys
ROOT = os.path.dirname(os.path.dirname(os.path.abspath(__file__)))
SRC = os.environ.get('BASE', ROOT + '/lean')
SCR = os.environ.get('SCRATCH', '/tmp/seed/lean')
sys.path.insert(0, ROOT + '/seeded')
from mutants import MUTANTS
LOG = ROOT + '/seeded/LOG.jsonl'
done = set()
if os.path.exists(LOG):
    done = {json.loads(l)['id'] for l in open(LOG) if l.strip()}
DECL = re.compile(r'^\s*(?:@\[[^\]]*\]\s*)?(?:private |protected |noncomputable |nonrec )*(theorem|lemma|def|example|instance|inductive|structure|abbrev)\s*([^\s:({\[]*)')
def enclosing(path, line):
    ls = open(path).read().split('\n')
    for i in range(min(line, len(ls)) - 1, -1, -1):
        m = DECL.match(ls[i])
        if m: return m.group(1), m.group(2) or f'(example at line {i+1})'
    return '?', '?'
def modules():
    out = {}
    for d, _, fs in os.walk(SCR + '/Verif'):
        for f in fs:
            if f.endswith('.lean'):
                p = os.path.join(d, f)
                m = os.path.relpath(p, SCR)[:-5].replace('/', '.')
                out[m] = re.findall(r'^import (Verif\S+)', open(p).read(), re.M)
    return out
def sync():
    # the compiled files of the baseline are copied too, so that only what depends on the edit is rebuilt
    shutil.rmtree(SCR, ignore_errors=True)
    subprocess.check_call(['cp', '-a', SRC, SCR])
def build():
    p = subprocess.run(['lake', 'build'], cwd=SCR, capture_output=True, text=True)
    return p.returncode, p.stdout + p.stderr
def run(m):
    sync()
    path = f'{SCR}/Verif/{m["file"]}'
    s = open(path).read()
    n = s.count(m['old'])
    if n != 1:
        return {'id': m['id'], 'bad': f'old string occurs {n} times'}
    open(path, 'w').write(s.replace(m['old'], m['new']))
    rc, out = build()
    failed, bad_mods, nonthm = [], set(), []
    for f, l in dict.fromkeys(re.findall(r'error: (Verif/\S+\.lean):(\d+):\d+', out)):
        kind, name = enclosing(f'{SCR}/{f}', int(l))
        bad_mods.add(f[:-5].replace('/', '.'))
        mod = f[6:-5]
        tag = f'{name} [{mod}]'
        if kind in ('theorem', 'lemma', 'example'):
            if tag not in failed: failed.append(tag)
        elif f'{kind} {tag}' not in nonthm: nonthm.append(f'{kind} {tag}')
    deps = modules()
    def reaches(x, seen):
        if x in seen: return seen[x]
        seen[x] = False
        seen[x] = any(y in bad_mods or reaches(y, seen) for y in deps.get(x, []))
        return seen[x]
    blocked = []
    seen = {}
    for x in deps:
        if x.startswith('Verif.Props') and x not in bad_mods and reaches(x, seen):
            blocked += re.findall(r'^theorem (C\d\d_\w+)', open(f'{SCR}/{x.replace(".", "/")}.lean').read(), re.M)
    return {'id': m['id'], 'definition': m['def'], 'file': m['file'], 'edit': m['edit'], 'claim_broken': m['claim'],
            'build': 'fails' if rc else 'SUCCEEDS', 'theorems_failed': failed, 'definitions_failed': nonthm,
            'claim_theorems_not_reached': sorted(blocked), 'theorems_tightened': m.get('tightened', [])}
if __name__ == '__main__':
    ids = sys.argv[1:]
    os.makedirs(os.path.dirname(SCR), exist_ok=True)
    for m in MUTANTS:
        if ids and m['id'] not in ids: continue
        if not ids and m['id'] in done: continue
        r = run(m)
        if 'bad' in r:
            print(r); continue
        print(m['id'], r['build'], r['theorems_failed'][:6], r['definitions_failed'], len(r['claim_theorems_not_reached']), flush=True)
        with open(LOG, 'a') as f: f.write(json.dumps(r, ensure_ascii=False) + '\n')
