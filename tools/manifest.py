#!/usr/bin/env python3
"""Regenerate MANIFEST.json: collects the theorems named Cnn_* in lean/Verif/Properties."""
import re, json, glob, os
root = os.path.dirname(os.path.dirname(os.path.abspath(__file__)))
NOTES = json.load(open(os.path.join(root, 'tools', 'notes.json')))
thms = {}
for f in sorted(glob.glob(os.path.join(root, 'lean/Verif/Properties/*.lean'))):
    src = open(f).read()
    src = re.sub(r'/-.*?-/', '', src, flags=re.S)
    ns = []
    for line in src.split('\n'):
        m = re.match(r'namespace (\S+)', line)
        if m: ns.append(m.group(1))
        m = re.match(r'end (\S+)', line)
        if m and ns and ns[-1] == m.group(1): ns.pop()
        m = re.match(r"(?:private )?theorem ([A-Za-z0-9_.']+)", line)
        if m:
            c = re.match(r'C(\d\d)_', m.group(1).split('.')[-1])
            if c: thms.setdefault('C' + c.group(1), []).append('.'.join(ns + [m.group(1)]))
claims = []
for l in open(os.path.join(root, 'properties.jsonl')):
    i = json.loads(l)['id']
    note = NOTES.get(i, {})
    t = thms.get(i, [])
    status = note.get('status', 'proved')
    if not t and status != 'not_applicable': 
        print('no theorems yet:', i); continue
    claims.append({'property': i, 'status': status, 'theorems': t, 'note': note.get('note', '')})
json.dump({'claims': claims}, open(os.path.join(root, 'MANIFEST.json'), 'w'), indent=1)
print(len(claims), 'claims', sum(len(c['theorems']) for c in claims), 'theorems')
