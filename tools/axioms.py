#!/usr/bin/env python3
"""Rewrite the list of axioms per theorem at the end of DESIGN.md (between the markers), with `#print axioms` on every theorem
of MANIFEST.json. Needs a finished `lake build`."""
import json, os, re, subprocess, tempfile
root = os.path.dirname(os.path.dirname(os.path.abspath(__file__)))
thms = [t for c in json.load(open(root + '/MANIFEST.json'))['claims'] for t in c['theorems']]
src = 'import Verif\n' + ''.join('#print axioms %s\n' % t for t in thms)
with tempfile.NamedTemporaryFile('w', suffix='.lean', delete=False) as f:
    f.write(src)
out = subprocess.run(['lake', 'env', 'lean', f.name], cwd=root + '/lean', capture_output=True, text=True).stdout
out = re.sub(r'\s+', ' ', out)
groups = {}
for t in thms:
    m = re.search(r"'%s' depends on axioms: \[([^\]]*)\]" % re.escape(t), out)
    if m: key = m.group(1)
    elif re.search(r"'%s' does not depend on any axioms" % re.escape(t), out): key = '(none)'
    else: raise SystemExit('no answer for ' + t)
    groups.setdefault(key, []).append(t)
text = ''
for k in sorted(groups, key=lambda k: (len(k), k)):
    text += '* **%s** (%d theorems): %s\n' % (k, len(groups[k]), ', '.join('`%s`' % t.split('.', 1)[1] for t in groups[k]))
p = root + '/DESIGN.md'
s = open(p).read()
a, b = '<!-- axioms:begin -->\n', '<!-- axioms:end -->'
s = s[:s.index(a) + len(a)] + text + s[s.index(b):]
open(p, 'w').write(s)
print({k: len(v) for k, v in groups.items()})
