#!/usr/bin/env python3
"""Rewrites section 5 of DESIGN.md from MANIFEST.json."""
import json, os
r = os.path.join(os.path.dirname(os.path.abspath(__file__)), "..")
m = {c['property']: c for c in json.load(open(os.path.join(r, 'MANIFEST.json')))['claims']}
t = open(os.path.join(r, 'DESIGN.md')).read()
a = t.index('* **C'); b = t.index('\n## 6')
s = ''
for k in sorted(m):
    c = m[k]
    if c['status'] == 'partial':
        s += '* **%s** (partial). %s  Theorems: %s.\n' % (k, c['note'].rstrip('.') + '.', ', '.join('`%s`' % x.split('.')[-1] for x in c['theorems']))
open(os.path.join(r, 'DESIGN.md'), 'w').write(t[:a] + s + t[b:])
