#!/usr/bin/env python3
"""Mutation test of the model, in a scratch copy outside /verif.

usage: mutate.py spec.json ...
Each spec is a JSON list of {"file", "definition", "old", "new", "edit", "claim", "target"}:
`old` (unique in lean/Verif/Model/<file>.lean) is replaced by `new`; `target` is the list of Props
modules to look at.
Broken helper lemmas are replaced by `sorry` in the scratch copy, so that the report names exactly the
property theorems whose proofs break or depend on a broken lemma. One line is appended to seeded/LOG.jsonl
per mutant.
"""
import json, re, subprocess, sys, os, shutil
SRC = '/verif/lean'
DST = '/tmp/mut/lean'
LOG = '/verif/seeded/LOG.jsonl'

def snapshot():
    """copy the project once, so that edits in /verif during the run do not matter"""
    subprocess.run('rm -rf /tmp/mut/base; mkdir -p /tmp/mut; cp -a %s /tmp/mut/base' % SRC, shell=True, check=True)

def sync():
    subprocess.run('rm -rf %s; cp -a /tmp/mut/base %s' % (DST, DST), shell=True, check=True)

def build(mods):
    return subprocess.run(['lake', 'build'] + mods, cwd=DST, capture_output=True, text=True)

DECL = re.compile(r'^(?:@\[[^\]]*\]\s*)?(?:private |protected |noncomputable )*(theorem|lemma|def|example|instance|structure|abbrev)\b\s*([^\s:({\[]*)')

def blocks(lines):
    """(start, end, kind, name) of the top-level declarations"""
    starts = [(i, m.group(1), m.group(2)) for i, l in enumerate(lines) for m in [DECL.match(l)] if m]
    out = []
    for n, (i, k, nm) in enumerate(starts):
        e = starts[n + 1][0] if n + 1 < len(starts) else len(lines)
        # stop at a top-level comment / command
        for j in range(i + 1, e):
            if re.match(r'^(/--|/-!|namespace|end|open|variable|section|set_option|@\[)', lines[j]):
                e = j; break
        out.append((i, e, k, nm))
    return out

def patch(path, errlines):
    lines = open(path).read().split('\n')
    names, edits = [], []
    bl = blocks(lines)
    for (i, e, k, nm) in bl:
        if any(i <= x - 1 < e for x in errlines):
            names.append((k, nm, i, e))
    for (k, nm, i, e) in sorted(names, key=lambda t: -t[2]):
        txt = '\n'.join(lines[i:e])
        if k == 'example':
            lines[i:e] = [''] * (e - i)
        elif k in ('theorem', 'lemma'):
            m = re.search(r':=\s*by\b|:=\s*\n|:= by|:=(?=\s)(?![^\n]*:=)', txt)
            ms = [m for m in re.finditer(r':=', txt)]
            # first := at bracket depth 0
            depth = 0; pos = None
            for j, ch in enumerate(txt):
                if ch in '([{⟨': depth += 1
                elif ch in ')]}⟩': depth -= 1
                elif ch == ':' and txt[j:j+2] == ':=' and depth == 0:
                    pos = j; break
            head = txt[:pos] if pos is not None else txt.split('\n  | ')[0]
            new = (head.rstrip() + ' := by sorry').split('\n')
            lines[i:e] = new + [''] * max(0, e - i - len(new))
        else:
            return names, False
    open(path, 'w').write('\n'.join(lines))
    return names, True

def run(spec):
    sync()
    f = f'{DST}/Verif/Model/{spec["file"]}.lean'
    t = open(f).read()
    if t.count(spec['old']) != 1:
        print('BAD SPEC: occurrences', t.count(spec['old']), spec['definition'], spec['edit']); return
    open(f, 'w').write(t.replace(spec['old'], spec['new']))
    mods = ['Verif.Props.' + m for m in spec['target']]
    broken, ex, hard = [], 0, []
    for _ in range(40):
        r = build(mods)
        if r.returncode == 0: break
        errs = {}
        for m in re.finditer(r'^error: (Verif/[\w/]+\.lean):(\d+):', r.stdout + r.stderr, re.M):
            errs.setdefault(m.group(1), []).append(int(m.group(2)))
        if not errs:
            hard.append((r.stdout + r.stderr)[-400:]); break
        stop = False
        for p, ls in errs.items():
            names, ok = patch(f'{DST}/{p}', ls)
            if not names or not ok:
                hard.append(f'{p}:{ls} {names}'); stop = True
            broken += [nm for (k, nm, _, _) in names if k != 'example']
            ex += sum(1 for n in names if n[0] == 'example')
        if stop: break
    else:
        hard.append('too many rounds')
    failed = []
    if hard:
        failed = ['(build stopped: %s)' % hard[0]] + list(dict.fromkeys(broken))
    else:
        thms = []
        for m in spec['target']:
            ns = []
            for l in open(f'{DST}/Verif/Props/{m}.lean'):
                if q := re.match(r'namespace (\S+)', l): ns.append(q.group(1))
                elif ns and re.match(r'end %s\s*$' % re.escape(ns[-1]), l): ns.pop()
                elif q := re.match(r'theorem (c\d\d\w*)', l): thms.append('.'.join(ns + [q.group(1)]))
        os.makedirs('/tmp/mut/s', exist_ok=True)
        open('/tmp/mut/s/ax.lean', 'w').write(''.join(f'import Verif.Props.{m}\n' for m in spec['target']) +
            'open Boost.Random\n' + ''.join(f'#print axioms {n}\n' for n in thms))
        r = subprocess.run(['lake', 'env', 'lean', '/tmp/mut/s/ax.lean'], cwd=DST, capture_output=True, text=True)
        for m in re.finditer(r"'(?:Boost\.Random\.)?([\w.]+)' depends on axioms: \[([^\]]*)\]", r.stdout):
            if 'sorryAx' in m.group(2): failed.append(m.group(1).split('.')[-1])
        if 'error' in r.stdout: print(r.stdout[-500:])
    rec = {'definition': spec['definition'], 'edit': spec['edit'], 'claim': spec['claim'],
           'failed': failed, 'lemmas_broken': [b for b in dict.fromkeys(broken) if not re.match(r'c\d\d', b)][:12],
           'examples_broken': ex, 'tightened': spec.get('tightened', [])}
    print(json.dumps(rec, ensure_ascii=False))
    open(LOG, 'a').write(json.dumps(rec, ensure_ascii=False) + '\n')

snapshot()
for p in sys.argv[1:]:
    for spec in json.load(open(p)):
        run(spec)
