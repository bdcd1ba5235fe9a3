#!/usr/bin/env python3
"""Check the citations of the model against the source: every `src/FILE.rs:A-B` in a comment of lean/Verif/Model must be a range of lines
of that file that neither begins nor ends with a blank line or begins with a closing brace, and when a doc comment has the form "src/FILE.rs:A-B `name`" the name must occur in those lines."""
import glob, os, re, sys
root = os.path.dirname(os.path.dirname(os.path.abspath(__file__)))
repo = sys.argv[1] if len(sys.argv) > 1 else '/repo'
src = {os.path.basename(p): open(p).read().split('\n') for p in glob.glob(repo + '/src/*.rs')}
bad = total = named = 0
uncited = []
for p in sorted(glob.glob(root + '/lean/Verif/Model/*.lean')):
    text = open(p).read()
    base = os.path.basename(p)
    for m in re.finditer(r'(src/)?(\w+\.rs):([\d,\- ]*\d)((?:\s*`[^`]+`,?)*)', text):
        f, ranges, names = m.group(2), m.group(3), re.findall(r'`([^`]+)`', m.group(4))
        if f not in src:
            print(base, 'unknown file', m.group(0)); bad += 1; continue
        lines = []
        for r in re.split(r',\s*', ranges):
            a, _, b = r.strip().partition('-')
            a = int(a); b = int(b or a)
            total += 1
            if not (1 <= a <= b <= len(src[f])):
                print(base, 'bad range', m.group(0)); bad += 1
            first, last = src[f][a - 1].strip(), src[f][b - 1].strip()
            if b > a and (not first or not last or (first.startswith('}') and not first.startswith('} else'))):
                print(base, 'ragged range', '%s:%d-%d' % (f, a, b)); bad += 1
            lines += src[f][a - 1:b]
        body = '\n'.join(lines)
        for n in names:
            named += 1
            ident = re.findall(r'\w+', n)
            if not any(i in body for i in ident):
                print(base, 'name not there:', m.group(0)); bad += 1
    # definitions without a citation in their comment or in the comment of the file
    for m in re.finditer(r'(/--((?:(?!-/).)*)-/\s*)?(?:@\[[^\]]*\]\s*)?\n?(?:private )?(def|instance|structure|inductive|abbrev|class) ([^\n:]*)', text, re.S):
        if not m.group(1):
            uncited.append((base, m.group(3), m.group(4)[:50]))
print(total, 'ranges,', named, 'names checked,', bad, 'bad')
if '-v' in sys.argv:
    for u in uncited: print('no comment:', *u)
sys.exit(bad > 0)
