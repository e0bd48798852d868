#!/usr/bin/env python3
"""Regenerates /verif/MANIFEST.json from the theorem names in lean/Verif/Props (prefix Cnn_)."""
import re, os, json, glob
R = os.path.join(os.path.dirname(os.path.abspath(__file__)), '..')
thms = {}
for f in sorted(glob.glob(R + '/lean/Verif/Props/*.lean')):
    ns = []
    for l in open(f):
        m = re.match(r'namespace (\S+)', l)
        if m: ns.append(m.group(1))
        m = re.match(r'end (\S+)', l)
        if m and ns and ns[-1] == m.group(1): ns.pop()
        m = re.match(r"theorem (C(\d+)_[\w']+)", l)
        if m:
            thms.setdefault('C' + m.group(2), []).append('.'.join(ns + [m.group(1)]))
notes = json.load(open(R + '/tools/notes.json'))
claims = []
for l in open(R + '/properties.jsonl'):
    p = json.loads(l); i = p['id']
    ts = thms.get(i, [])
    n = notes.get(i, '')
    if not ts:
        st = 'not_applicable'; n = n or 'not yet modelled'
    elif any('_refuted' in t or '_partial' in t for t in ts): st = 'partial'
    else: st = 'proved'
    if st == 'partial' and any('_refuted' in t for t in ts):
        n = ('The property is false of the code: the _refuted theorem proves its negation with a concrete witness; the other theorems prove what remains. ' + n).strip()
    claims.append(dict(property=i, status=st, theorems=ts, note=n))
unk = set(thms) - {c['property'] for c in claims}
assert not unk, unk
json.dump(dict(claims=claims), open(R + '/MANIFEST.json', 'w'), indent=1)
from collections import Counter
print(Counter(c['status'] for c in claims), sum(len(c['theorems']) for c in claims))
