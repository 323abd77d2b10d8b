#!/usr/bin/env python3
"""Regenerate MANIFEST.json from the theorem names Cxx_* in lean/Verif/Props."""
import json, re, glob, os
root = os.path.dirname(os.path.dirname(os.path.abspath(__file__)))
notes = {}
np = os.path.join(root, 'tools', 'notes.json')
if os.path.exists(np):
    notes = json.load(open(np))
thms = {}
for f in sorted(glob.glob(root + '/lean/Verif/Props/**/*.lean', recursive=True)):
    ns = []
    for line in open(f):
        m = re.match(r'namespace\s+(\S+)', line)
        if m: ns.append(m.group(1))
        m = re.match(r'end\s+(\S+)', line)
        if m and ns and ns[-1] == m.group(1): ns.pop()
        m = re.match(r'(?:protected |private )?theorem\s+(C\d+_\S+)', line)
        if m:
            thms.setdefault(m.group(1).split('_')[0], []).append('.'.join(ns + [m.group(1)]))
claims = []
for line in open(root + '/properties.jsonl'):
    p = json.loads(line)['id']
    t = thms.get(p, [])
    n = notes.get(p, {})
    if not t:
        status = n.get('status', 'partial')
        if status != 'not_applicable':
            continue
    else:
        status = n.get('status') or ('partial' if any(x.endswith('_partial') for x in t) else 'proved')
    claims.append({'property': p, 'status': status, 'theorems': t, 'note': n.get('note', '')})
json.dump({'claims': claims}, open(root + '/MANIFEST.json', 'w'), indent=1, ensure_ascii=False)
print(len(claims), 'claims', sum(len(c['theorems']) for c in claims), 'theorems',
      [c['property'] for c in claims if c['status'] != 'proved'])
