#!/usr/bin/env python3
"""Regenerates MANIFEST.json from the table below; checks that every theorem name occurs in the sources."""
import json, glob, re
src = '\n'.join(open(f).read() for f in glob.glob('/verif/lean/Verif/Props/*.lean'))
names = re.findall(r'^theorem (C\d+_\w+)', src, re.M)
NOTES = json.load(open('/verif/tools/notes.json'))
props = [json.loads(l)['id'] for l in open('/verif/properties.jsonl')]
claims = []
for p in props:
    ths = [n for n in names if n.startswith(p + '_')]
    n = NOTES.get(p, {})
    if not ths and n.get('status') != 'not_applicable':
        print('no theorem yet:', p); continue
    status = n.get('status') or ('partial' if any(t.endswith('_partial') for t in ths) else 'proved')
    claims.append({'property': p, 'status': status, 'theorems': ['Bips.' + t for t in ths], 'note': n.get('note', '')})
json.dump({'claims': claims}, open('/verif/MANIFEST.json', 'w'), indent=1)
print(len(claims), 'claims')
