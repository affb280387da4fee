#!/usr/bin/env python3
"""Write MANIFEST.json: for every property the theorems named Cxx_* in lean/Verif/Props, and the note in tools/notes.json."""
import json, re, glob, os
root = os.path.dirname(os.path.dirname(os.path.abspath(__file__)))
thms = {}
for f in sorted(glob.glob(root + '/lean/Verif/Props/*.lean')):
    src = open(f).read()
    ns = re.search(r'^namespace (\S+)', src, re.M).group(1)
    for m in re.finditer(r'^theorem (C(\d\d)_\w+)', src, re.M):
        thms.setdefault('C' + m.group(2), []).append(ns + '.' + m.group(1))
notes = json.load(open(root + '/tools/notes.json'))
claims = []
for line in open(root + '/properties.jsonl'):
    if not line.strip(): continue
    p = json.loads(line)['id']
    t = thms.get(p, [])
    n = notes.get(p, {})
    status = n.get('status') or ('proved' if t else 'partial')
    if not t: status = 'partial'
    claims.append({'property': p, 'status': status, 'theorems': t, 'note': n.get('note', '') if t else 'not proved yet'})
json.dump({'claims': claims}, open(root + '/MANIFEST.json', 'w'), indent=1, ensure_ascii=False)
print({s: sum(c['status'] == s for c in claims) for s in ('proved', 'partial', 'not_applicable')})
print([c['property'] for c in claims if not c['theorems']])
