#!/usr/bin/env python3
"""Write MANIFEST.json from the theorem names found under lean/Verif/Props and the table below."""
import json, re, glob, os
root = os.path.dirname(os.path.dirname(os.path.abspath(__file__)))
names = {}
for f in sorted(glob.glob(root + '/lean/Verif/Props/*.lean')):
    for m in re.finditer(r'^theorem (C\d\d)_(\S+)', open(f).read(), re.M):
        names.setdefault(m.group(1), []).append('Verif.' + m.group(1) + '_' + m.group(2))
notes = json.load(open(root + '/tools/status.json'))
props = [json.loads(x)['id'] for x in open(root + '/properties.jsonl')]
claims = []
for p in props:
    ths = names.get(p, [])
    st = notes.get(p, {})
    if not ths:
        claims.append({"property": p, "status": "partial", "theorems": [],
                       "note": st.get('note', 'not proved yet')})
        continue
    status = st.get('status', 'partial')
    claims.append({"property": p, "status": status, "theorems": ths, "note": st.get('note', '')})
json.dump({"claims": claims}, open(root + '/MANIFEST.json', 'w'), indent=1)
print({s: sum(c['status'] == s and c['theorems'] != [] for c in claims) for s in ('proved', 'partial')})
