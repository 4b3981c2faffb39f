#!/usr/bin/env python3
"""Writes MANIFEST.json from the theorem names in lean/Verif/Props and the notes below."""
import glob, json, os, re
root = os.path.dirname(os.path.dirname(os.path.abspath(__file__)))
names = {}
for f in sorted(glob.glob(root + '/lean/Verif/Props/*.lean')):
    for m in re.finditer(r'^theorem (C(\d\d)_\S+)', open(f).read(), re.M):
        names.setdefault('C' + m.group(2), []).append('ISD.' + m.group(1))
notes = json.load(open(root + '/tools/notes.json'))
claims = []
for line in open(root + '/properties.jsonl'):
    p = json.loads(line)['id']
    th = sorted(names.get(p, []))
    n = notes.get(p, {})
    status = n.get('status', 'proved' if th else 'not_applicable')
    claims.append({'property': p, 'status': status, 'theorems': th, 'note': n.get('note', '')})
json.dump({'claims': claims}, open(root + '/MANIFEST.json', 'w'), indent=1)
print({s: sum(c['status'] == s for c in claims) for s in ('proved', 'partial', 'not_applicable')})
print('no theorems:', [c['property'] for c in claims if not c['theorems']])
