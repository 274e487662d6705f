#!/usr/bin/env python3
"""Regenerates MANIFEST.json: theorem names are collected from lean/Verif/Props by their Cnn_ prefix."""
import re, json, glob, collections, os
root = os.path.dirname(os.path.dirname(os.path.abspath(__file__)))
ths = collections.defaultdict(list)
for f in sorted(glob.glob(root + '/lean/Verif/Props/*.lean')):
    ns = []
    for line in open(f):
        m = re.match(r'namespace (\S+)', line)
        if m: ns.append(m.group(1))
        m = re.match(r'end (\S+)', line)
        if m and ns and ns[-1] == m.group(1): ns.pop()
        m = re.match(r'(?:@\[[^\]]*\] )?theorem (\S+)', line)
        if m:
            n = m.group(1)
            for c in re.findall(r'C\d\d', n.split('_')[0] if re.match(r'C\d\d_', n) else ''):
                ths[c].append('.'.join(ns + [n]))
exec(open(root + '/tools/status.py').read())   # STATUS: {id: (status, note)}
claims = []
for l in open(root + '/properties.jsonl'):
    i = json.loads(l)['id']
    st, note = STATUS.get(i, ('not_applicable', 'not modelled yet'))
    if not ths[i]:
        st = 'not_applicable'
    claims.append({'property': i, 'status': st, 'theorems': ths[i], 'note': note})
json.dump({'claims': claims}, open(root + '/MANIFEST.json', 'w'), indent=1)
print(collections.Counter(c['status'] for c in claims))
