#!/usr/bin/env python3
"""Transcription check. For every definition of the model that cites a range of /repo, compare the sequence of hexadecimal
literals in the cited Rust text with the sequence in the Lean definition. Text only; nothing is built or run.
Usage: tools/literals.py [-v]"""
import os, re, sys
ROOT = os.path.join(os.path.dirname(os.path.abspath(__file__)), '..', 'lean', 'Verif', 'Model')
REPO = '/repo/src'
V = '-v' in sys.argv
DOC = re.compile(r'/--(.*?)-/\s*\n((?:@\[[^\]]*\]\s*)?(?:private |protected |noncomputable )?(?:def|abbrev|instance|structure|inductive|class)\b.*?)(?=\n/--|\n/-!|\nend |\nnamespace |\nsection|\nvariable|\Z)', re.S)
CITE = re.compile(r'(?:src/)?(\w+\.rs):(\d+)(?:-(\d+))?')
HEX = re.compile(r'\b0x([0-9a-fA-F_]+)')
def norm(l): return [int(x.replace('_', ''), 16) for x in l]
def strip_rust(t): return re.sub(r'//[^\n]*', '', t)
def strip_lean(t): return re.sub(r'/-.*?-/', '', re.sub(r'--[^\n]*', '', t), flags=re.S)
# Differences looked at by hand.
WHY = {
  r'Columns.lean:RCON': 'one array stands for three equal ones',
  r'(Leak)?(Hw|X86).lean:keyexp_192': 'they are in the local function fwd, a definition of its own',
  r'(Leak)?Table.lean:t[ed]4_[0-3]': 'the masks are arguments of the macro at line 384',
  r'Tests.lean:AES_\d+_KEY': 'hex strings in the source, numbers here',
  r'Tests.lean:(check_expanded|expansion_of_.*)': 'the expected round keys are separate definitions',
}
tot = same = empty = expected = 0
bad = []
for d, _, fs in os.walk(ROOT):
    for f in sorted(fs):
        s = open(os.path.join(d, f)).read()
        for m in DOC.finditer(s):
            doc, body = m.group(1), strip_lean(m.group(2))
            cites = CITE.findall(doc)
            if not cites: continue
            rust = []
            for file, a, b in cites:
                p = os.path.join(REPO, file)
                if not os.path.exists(p): continue
                L = open(p).read().split('\n')
                rust += norm(HEX.findall(strip_rust('\n'.join(L[int(a) - 1:int(b or a)]))))
            lean = norm(HEX.findall(body))
            name = re.search(r'(?:def|abbrev|instance|structure|inductive|class)\s+(\S+)', m.group(2))
            name = f"{f}:{name.group(1) if name else '?'}"
            tot += 1
            if not rust and not lean: empty += 1
            elif rust == lean: same += 1
            elif any(re.fullmatch(k, name) for k in WHY): expected += 1
            else: bad.append((name, doc.strip().split('\n')[0][:100], rust, lean))
print(f"{tot} definitions, {empty} without hexadecimal literals, {same} with the same sequence, {expected} with a difference explained in WHY, {len(bad)} different")
if V:
    for n, doc, r, l in bad:
        print(n, '|', doc); print('  rust', [hex(x) for x in r][:40]); print('  lean', [hex(x) for x in l][:40])
sys.exit(1 if bad else 0)
