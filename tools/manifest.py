#!/usr/bin/env python3
"""Writes MANIFEST.json from the claims below, checking that each theorem exists in lean/Verif/Props."""
import json, os, re, sys
root = os.path.dirname(os.path.dirname(os.path.abspath(__file__)))
claims = json.load(open(os.path.join(root, 'tools', 'claims.json')))
text = ''
for d, _, fs in os.walk(os.path.join(root, 'lean', 'Verif', 'Props')):
    for f in fs:
        if f.endswith('.lean'):
            text += open(os.path.join(d, f)).read()
names = set(re.findall(r'^(?:theorem|lemma)\s+([^\s:({\[]+)', text, re.M))
out = []
used = set()
for pid in sorted(claims):
    st, note = claims[pid]
    ths = sorted(n for n in names if re.match(pid + r'_', n))
    used.update(ths)
    if not ths and st != 'not_applicable':
        sys.exit('no theorem for ' + pid)
    out.append({'property': pid, 'status': st, 'theorems': ['Dis.' + t for t in ths], 'note': note})
left = sorted(n for n in names if re.match(r'C\d\d_', n) and n not in used)
if left:
    print('unclaimed:', left)
with open(os.path.join(root, 'MANIFEST.json'), 'w') as f:
    json.dump({'claims': out}, f, indent=1, ensure_ascii=False)
    f.write('\n')
