#!/usr/bin/env python3
"""Transcription check. For every definition of the hardware models that cites one range of /repo, compare the intrinsics
named in the cited Rust text with those named in the Lean definition (as multisets). Text only; nothing is built or run."""
import os, re, sys
HERE = os.path.dirname(os.path.abspath(__file__))
sys.path.insert(0, HERE)
exec(open(os.path.join(HERE, 'literals.py')).read().split('# Differences')[0])
RUST = {'set1_epi64x': 'set1_minus1', 'set1_epi64': 'set1_minus1', 'inserti128': 'inserti128_si256_1', 'inserti64x4': 'inserti64x4_1',
        'extracti128': 'extracti128_si256', 'broadcastsi128': 'broadcastsi128_si256', 'castsi128': 'castsi128_si256',
        'castsi256': 'castsi256_si512', 'vgetq_lane_u32': 'lane_u32', 'vgetq_lane_u64': 'lane_u64', 'vdupq_n_u32': 'vdupq_n_u32_bytes',
        'vld1q': 'vld1q_u8', 'vst1q': 'vst1q_u8', 'vdupq_n': 'vdupq_n_u8'}
SKIP_RUST = ('vreinterpretq_',)                 # no-ops on bytes
SKIP_LEAN = ('lanewise2', 'lanewise4')          # the 256/512-bit version of the instruction that follows
WHY = {'X86.keyexp_192': 'part is in the local function fwd, a definition of its own',
       'Riscv32.sub_word': '`xor` is the name of an x86 intrinsic too; here it is ^'}
def base(n):
    n = re.sub(r'_(si128|si256|si512|epi128|u8)$', '', re.sub(r'^_mm(256|512)?_', '', n))
    return RUST.get(n, n)
isa = {m.group(1) for f in ('IsaX86', 'IsaArm', 'IsaRiscv')
       for m in re.finditer(r'^(?:opaque|def)\s+(\S+)', open(f'{ROOT}/{f}.lean').read(), re.M)}
same, bad, expl = 0, [], 0
for f in ('X86', 'NiX2', 'NiX4', 'Arm', 'Riscv64', 'Riscv32'):
    for m in DOC.finditer(open(f'{ROOT}/{f}.lean').read()):
        doc, body = m.group(1), strip_lean(m.group(2))
        c = CITE.findall(doc)
        if len(c) != 1: continue
        file, a, b = c[0]
        L = open(os.path.join(REPO, file)).read().split('\n')
        t = strip_rust('\n'.join(L[int(a) - 1:int(b or a)]))
        r = [base(x) for x in re.findall(r'\b(_mm\w+|v[a-z0-9]+q_\w+|aes(?:32|64)\w+)\b', t) if not x.startswith(SKIP_RUST)]
        l = [x for x in re.findall(r'[A-Za-z_]\w*', body.split(':=', 1)[-1]) if x in isa and x not in SKIP_LEAN]
        if not r and not l: continue
        name = f + '.' + re.search(r'(?:def|abbrev|instance|structure|inductive|class)\s+(\S+)', m.group(2)).group(1)
        if sorted(r) == sorted(l): same += 1
        elif name in WHY: expl += 1
        else: bad.append((name, r, l))
print(f"{same} definitions name the intrinsics of the cited text, {expl} differ as explained in WHY, {len(bad)} differ")
for x in bad: print(*x)
sys.exit(1 if bad else 0)
