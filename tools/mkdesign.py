#!/usr/bin/env python3
"""Writes DESIGN.md: tools/design_head.md, then the table per property (from properties.jsonl, claims.py, how.py)."""
import json, os
here = os.path.dirname(os.path.abspath(__file__)); root = os.path.dirname(here)
ns = {}
exec(open(here + '/claims.py').read(), ns); exec(open(here + '/how.py').read(), ns)
cl = {c[0]: c for c in ns['CLAIMS']}
out = [open(here + '/design_head.md').read().rstrip(), '', '## Per property', '',
       'What is modelled, how it is proved, and the theorems (all in `Verif.<Area>`; exact names in MANIFEST.json).', '']
for l in open(root + '/properties.jsonl'):
    p = json.loads(l); c = cl.get(p['id']); h = ns['HOW'].get(p['id'])
    if not h: print('no HOW for', p['id']); h = ('', '')
    out.append(f"* **{p['id']} {p['title']}.** Modelled: {h[0]}. Proof: {h[1]}.")
    if c:
        out.append(f"  Status: {c[1]}; " + ', '.join('`' + t.replace('Verif.', '', 1) + '`' for t in c[2]) + (f" — {c[3]}" if c[3] else '') + '.')
open(root + '/DESIGN.md', 'w').write('\n'.join(out) + '\n')
