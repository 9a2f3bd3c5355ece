#!/usr/bin/env python3
"""Regenerate MANIFEST.json from the theorem names in lean/Verif/Props and tools/status.json."""
import json, re, glob, os
root = os.path.dirname(os.path.dirname(os.path.abspath(__file__)))
names = {}
for f in sorted(glob.glob(root + '/lean/Verif/Props/*.lean')):
    src = open(f).read()
    src = re.sub(r'/-.*?-/', '', src, flags=re.S)
    scopes = []
    for l in src.split('\n'):
        m = re.match(r'(?:noncomputable )?(namespace|section|end|theorem)\b\s*(\S*)', l)
        if not m:
            continue
        k, nm = m.groups()
        if k == 'namespace':
            scopes.append(nm)
        elif k == 'section':
            scopes.append('')
        elif k == 'end':
            scopes.pop()
        else:
            c = re.match(r'c(\d\d+)_', nm)
            if c:
                names.setdefault('C' + c.group(1), []).append('.'.join([x for x in scopes if x] + [nm]))
status = json.load(open(root + '/tools/status.json'))
claims = []
for line in open(root + '/properties.jsonl'):
    i = json.loads(line)['id']
    st = status.get(i, ['partial', 'not proved yet'])
    claims.append({'property': i, 'status': st[0], 'theorems': names.get(i, []), 'note': st[1]})
json.dump({'claims': claims}, open(root + '/MANIFEST.json', 'w'), indent=1)
print(sum(c['status'] == 'proved' for c in claims), 'proved,', sum(not c['theorems'] for c in claims), 'without theorems')
