#!/usr/bin/env python3
"""Write MANIFEST.json from the theorem names in lean/Verif/Props (Cnn_...) and tools/notes.json."""
import json, re, glob, os
root = os.path.dirname(os.path.dirname(os.path.abspath(__file__)))
thms = {}
for f in sorted(glob.glob(root + '/lean/Verif/Props/*.lean')):
    ns = []
    for line in open(f):
        m = re.match(r'namespace (\S+)', line)
        if m: ns.append(m.group(1))
        m = re.match(r'end (\S+)', line)
        if m and ns and ns[-1] == m.group(1): ns.pop()
        m = re.match(r'theorem (_root_\.Chomp\.Props\.)?(C\d\d+)(_\S*)', line)
        if m: thms.setdefault(m.group(2), []).append('.'.join((['Chomp.Props'] if m.group(1) else ns) + [m.group(2) + m.group(3)]))
notes = json.load(open(root + '/tools/notes.json'))
claims = []
for l in open(root + '/properties.jsonl'):
    d = json.loads(l)
    i = d['id']
    n = notes.get(i, {})
    t = thms.get(i, [])
    st = n.get('status') or ('partial' if (not t or any(x.endswith('_partial') for x in t)) else 'proved')
    claims.append({'property': i, 'status': st, 'theorems': t,
                   'note': n.get('note', d['title'] if t else 'not yet proved')})
json.dump({'claims': claims}, open(root + '/MANIFEST.json', 'w'), indent=1)
print({s: sum(c['status'] == s for c in claims) for s in ('proved', 'partial', 'not_applicable')})
