#!/usr/bin/env python3
"""Automatic small edits of the model (one token at a time), each followed by a rebuild that stops at the first error.
Usage: BASE=<built copy of lean/> automut.py <seed> <count> [file prefix ...]; results go to $OUT (JSON lines). Edits that survive are
reviewed by hand: they are either equivalent to the original or call for a stronger theorem."""
import json, os, random, re, shutil, signal, subprocess, sys
BASE = os.environ.get('BASE', '/tmp/seed/base')
SCR = os.environ.get('SCR', '/tmp/am/scr')
OUT = os.environ.get('OUT', '/tmp/am/out.jsonl')
SKIP = {'Model/DasRulesText.lean', 'Model/DasRules.lean', 'Go/Heap.lean'}
REPL = [(r'(?<![\w.])(\d+)(?![\w.])', lambda m: str(int(m.group(1)) + 1)),
        (r'(?<![\w.])([1-9]\d*)(?![\w.])', lambda m: str(int(m.group(1)) - 1)),
        (r' < ', ' ≤ '), (r' ≤ ', ' < '), (r' ≠ ', ' = '), (r' \+ ', ' - '), (r' - ', ' + '), (r' \* ', ' + '),
        (r'&&', '||'), (r'\|\|', '&&'), (r' ∧ ', ' ∨ '), (r' ∨ ', ' ∧ '), (r'\btrue\b', 'false'), (r'\bfalse\b', 'true'),
        (r'\.1\b', '.2'), (r'\.2\b', '.1'), (r'\.take\b', '.drop'), (r'\.drop\b', '.take'), (r' \^\^\^ ', ' &&& '),
        (r' <<< ', ' >>> '), (r' >>> ', ' <<< '), (r'(?<=if )([\w.]+) = ', r'\1 ≠ '),
        (r'(\w+) \+\+ (\w+)\b', r'\2 ++ \1'),
        (r'\bthen (\S[^\n]*?) else (\S[^\n]*)(?=\n)', r'then \2 else \1'),
        (r'\b(username|password|metadata|secret|salt|input|info|key|flag|body|header|element|version|successes|failures|arr|off|len|cap)\b'
         r' (username|password|metadata|secret|salt|input|info|key|flag|body|header|element|version|successes|failures|arr|off|len|cap)\b',
         r'\2 \1'),
        (r'\(([a-z]\w*), ([a-z]\w*)\)', r'(\2, \1)'),
        (r'\bMetadataBreachedPassword\b', 'MetadataSimilarPassword'), (r'\bMetadataSimilarPassword\b', 'MetadataBreachedUsername'),
        (r'\bMetadataBreachedUsername\b', 'MetadataBreachedPassword'), (r'\bNotInBreach\b', 'InBreach'),
        (r'\.reverse\b', ''), (r' :: (\w+)\b', r' :: []'),
        (r'if ¬ ', 'if '), (r'if !', 'if '), (r'\.succ\b', ''), (r'\bmin\b', 'max'), (r'\bmax\b', 'min'),
        (r'\.toUInt16\b', '.toUInt8.toUInt16'), (r'\bUInt16\.ofNat\b', 'UInt16.ofNat <| (· % 256) <|'),
        (r' := v \}', ' := v, dumpConfig := true }'), (r'\.ok \(\)', '.err .transport'),
        (r'\bif (?!True|False|let|h )([^\n]*?) then\b', 'if True then'), (r'\bif (?!True|False|let|h )([^\n]*?) then\b', 'if False then'),
        (r' \+\+ [\w.]+(?= |\n|\))', ''), (r'(?<=[ (])[\w.]+ \+\+ (?=[\w.(])', ''), (r'\.err \.\w+', '.ok default'),
        (r'(?<=\n)    let _ ← [^\n]*\n', ''), (r'\.failed\b', '.reply 200 none')]
def blank_comments(s):
    out, i, depth = list(s), 0, 0
    while i < len(s):
        if s.startswith('/-', i): depth += 1; out[i] = out[i+1] = ' '; i += 2; continue
        if depth and s.startswith('-/', i): depth -= 1; out[i] = out[i+1] = ' '; i += 2; continue
        if depth:
            if s[i] != '\n': out[i] = ' '
        elif s.startswith('--', i):
            while i < len(s) and s[i] != '\n': out[i] = ' '; i += 1
            continue
        i += 1
    return ''.join(out)
def defs(s):
    """(name, start of the body, end) of each definition."""
    heads = [(m.start(), m.group(0)) for m in re.finditer(r'^(?:\S.*)$', s, re.M)]
    res = []
    for k, (p, line) in enumerate(heads):
        m = re.match(r'(?:noncomputable |private |@\[[^\]]*\] )*def (\S+)', line) or re.match(r'(?:inductive|structure) (\S+(?:Step|Act|Relation|Shape|Result|Pieces))', line)
        if m:
            end = heads[k+1][0] if k + 1 < len(heads) else len(s)
            body = s.find(':=', p, end)
            alt = s.find('\n  |', p, end)
            cand = [x for x in (body, alt) if x >= 0]
            if cand: res.append((m.group(1), min(cand), end))
    return res
def sites(rel):
    s = open(f'{BASE}/Verif/{rel}').read()
    b = blank_comments(s)
    assert len(b) == len(s)
    out = []
    for name, lo, hi in defs(b):
        for pat, rep in REPL:
            for m in re.finditer(pat, b[lo:hi]):
                new = rep(m) if callable(rep) else m.expand(rep)
                if new != m.group(0): out.append((rel, name, lo + m.start(), lo + m.end(), new))
        # one variable in place of another
        head = b.rfind('def ' + name, 0, lo)
        names = []
        for m in re.finditer(r'[({]([^(){}:]+) : ', b[max(head, 0):lo]): names += m.group(1).split()
        for m in re.finditer(r'\blet (\w+\S*) (?::=|←)|\blet \((\w+\S*), (\w+\S*)\) (?::=|←)|\.ok (\w+\S*) =>', b[lo:hi]):
            names += [x for x in m.groups() if x]
        names = [x for x in dict.fromkeys(names) if re.fullmatch(r"[a-z]\w*'?[₁₂]?", x)]
        for x in names:
            occ = list(re.finditer(r"(?<![\w.'])" + re.escape(x) + r"(?![\w'₁₂])", b[lo:hi]))
            for m in occ:
                for y in names:
                    if y != x: out.append((rel, name, lo + m.start(), lo + m.end(), y))
    return out
def enclosing(f, line):
    L = open(f).read().split('\n')
    for i in range(min(line, len(L)) - 1, -1, -1):
        m = re.match(r'(?:private |@\[[^\]]*\] )*(theorem|lemma|def|example|instance|structure|inductive|abbrev)\b\s*(\S*)', L[i])
        if m: return m.group(1), m.group(2)
    return '?', '?'
def run(site):
    rel, name, lo, hi, new = site
    path = f'{SCR}/Verif/{rel}'
    s = open(f'{BASE}/Verif/{rel}').read()
    shutil.rmtree(SCR, ignore_errors=True)
    subprocess.check_call(['cp', '-a', BASE, SCR])
    open(path, 'w').write(s[:lo] + new + s[hi:])
    line = s.count('\n', 0, lo) + 1
    r = {'file': rel, 'definition': name, 'line': line, 'old': s[lo:hi], 'new': new, 'text': s.split('\n')[line-1].strip()[:200]}
    p = subprocess.Popen(['lake', 'build'], cwd=SCR, stdout=subprocess.PIPE, stderr=subprocess.STDOUT, text=True, start_new_session=True)
    hit = None
    for l in p.stdout:
        m = re.match(r'error: (Verif/\S+\.lean):(\d+):', l)
        if m or re.match(r'error: (build failed|Lean exited)', l):
            hit = m or True
            os.killpg(p.pid, signal.SIGKILL)
            break
    p.wait()
    if hit is None: r['result'] = 'SURVIVES'
    elif hit is True: r['result'] = 'killed'
    else:
        kind, nm = enclosing(f'{SCR}/{hit.group(1)}', int(hit.group(2)))
        r['result'] = 'invalid' if hit.group(1) == f'Verif/{rel}' and kind in ('def', 'inductive') else 'killed'
        r['by'] = f'{kind} {nm} [{hit.group(1)[6:-5]}]'
    return r
if __name__ == '__main__':
    random.seed(int(sys.argv[1]))
    count, pref = int(sys.argv[2]), sys.argv[3:]
    files = sorted(f'{d}/{f}' for d in ('Go', 'Model', 'Spec') for f in os.listdir(f'{BASE}/Verif/{d}') if f.endswith('.lean'))
    done = set()
    if os.path.exists(OUT):
        for l in open(OUT):
            d = json.loads(l); done.add((d['file'], d['line'], d['old'], d['new']))
    by = {}
    for f in files:
        if f in SKIP or (not pref and f.startswith('Spec')) or (pref and not any(f.startswith(x) for x in pref)): continue
        for x in sites(f): by.setdefault((f, x[1]), []).append(x)
    keys = list(by); random.shuffle(keys)
    print(len(keys), 'definitions', sum(map(len, by.values())), 'sites', flush=True)
    n = 0
    while n < count and keys:
        for k in list(keys):
            if n >= count: break
            if not by[k]: keys.remove(k); continue
            x = by[k].pop(random.randrange(len(by[k])))
            s = open(f'{BASE}/Verif/{x[0]}').read()
            if (x[0], s.count('\n', 0, x[2]) + 1, s[x[2]:x[3]], x[4]) in done: continue
            r = run(x); n += 1
            open(OUT, 'a').write(json.dumps(r, ensure_ascii=False) + '\n')
            print(r['result'], x[0], x[1], r['line'], repr(r['old']), '->', repr(x[4]), r.get('by', ''), flush=True)
