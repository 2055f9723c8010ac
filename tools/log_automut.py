#!/usr/bin/env python3
"""Append reviewed results of automut.py to seeded/LOG.jsonl. Usage: log_automut.py <out.jsonl> <run name> [review.json]
review.json maps "definition|old|new" of an edit that survived to {"claim": ..., "tightened": [...], "failed": [...]}."""
import json, sys
rev = json.load(open(sys.argv[3])) if len(sys.argv) > 3 else {}
n = 0
with open('seeded/LOG.jsonl', 'a') as f:
    for i, l in enumerate(open(sys.argv[1])):
        r = json.loads(l)
        if r['result'] == 'invalid': continue
        k = f"{r['definition']}|{r['old'].strip()}|{r['new'].strip()}"
        v = rev.get(k, {})
        if r['result'] == 'SURVIVES' and not v: print('not reviewed:', k, r['text']); continue
        failed = [r.get('by', 'the build (out of memory or time)')] if r['result'] == 'killed' else v.get('failed', [])
        f.write(json.dumps({'id': f'{sys.argv[2]}-{i:03d}', 'definition': r['definition'], 'file': r['file'],
            'edit': f"line {r['line']}: {r['old'].strip()} -> {r['new'].strip()} in `{r['text']}` (automatic)",
            'claim_broken': v.get('claim', 'what the first failing theorem says or serves'),
            'build': 'fails' if failed else 'succeeds', 'theorems_failed': failed, 'definitions_failed': [],
            'theorems_tightened': v.get('tightened', [])}, ensure_ascii=False) + '\n')
        n += 1
print(n, 'lines')
