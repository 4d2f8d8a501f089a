#!/usr/bin/env python3
"""Writes MANIFEST.json from tools/claims.py; checks that every theorem named exists in the Lean sources."""
import json, os, re, glob, sys
here = os.path.dirname(os.path.abspath(__file__)); root = os.path.dirname(here)
ns = {}
exec(open(os.path.join(here, 'claims.py')).read(), ns)
names = set()
for f in glob.glob(root + '/lean/Verif/**/*.lean', recursive=True):
    cur = []
    for line in open(f):
        m = re.match(r'namespace (\S+)', line)
        if m: cur.append(m.group(1)); continue
        m = re.match(r'end (\S+)', line)
        if m and cur and cur[-1] == m.group(1): cur.pop(); continue
        m = re.match(r'(?:private )?theorem (\S+)', line)
        if m: names.add('.'.join(cur + [m.group(1)]))
claims = []
for (pid, status, thms, note) in ns['CLAIMS']:
    for t in thms:
        if t not in names: print('MISSING', pid, t)
    claims.append(dict(property=pid, status=status, theorems=thms, note=note))
ids = [json.loads(l)['id'] for l in open(root + '/properties.jsonl')]
have = [c['property'] for c in claims]
print('unclaimed:', [i for i in ids if i not in have])
used = {t for c in claims for t in c['theorems']}
print('C-theorems not in manifest:', sorted(n for n in names if re.search(r'\.C\d\d', n) and n not in used))
json.dump({'claims': claims}, open(root + '/MANIFEST.json', 'w'), indent=1)
