#!/usr/bin/env python3
"""Regenerates MANIFEST.json: the theorems of a property are those named Cnn_* in lean/Verif/Props."""
import json, re, glob, os
root = os.path.dirname(os.path.dirname(os.path.abspath(__file__)))
notes = json.load(open(os.path.join(root, 'tools', 'status.json')))
th = {}
for f in sorted(glob.glob(root + '/lean/Verif/Props/*.lean')):
    txt = open(f).read()
    ns = re.search(r"^namespace ([\w.]+)", txt, re.M).group(1)
    for n in re.findall(r"^theorem (C\d\d_[\w']+)", txt, re.M):
        th.setdefault(n[:3], []).append(ns + '.' + n)
claims = []
for l in open(root + '/properties.jsonl'):
    i = json.loads(l)['id']
    st, note = notes.get(i, ['partial', ''])
    if i not in th and st != 'not_applicable':
        continue
    claims.append(dict(property=i, status=st, theorems=th.get(i, []), note=note))
json.dump(dict(claims=claims), open(root + '/MANIFEST.json', 'w'), indent=1)
print({c['property']: (c['status'], len(c['theorems'])) for c in claims})
