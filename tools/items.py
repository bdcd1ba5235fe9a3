#!/usr/bin/env python3
"""Writes lean/Verif/Gen/Items.lean: every struct, impl header and static of /repo/src (tests.rs, which is compiled only for tests, left out), as data.
All tokens of the files are looked at, bodies of macros and both sides of every cfg included. Anything unexpected is refused."""
import os, sys
sys.path.insert(0, os.path.dirname(os.path.abspath(__file__)))
import rust2lean as R

SRC = '/repo/src'
OUT = os.path.join(os.path.dirname(os.path.abspath(__file__)), '..', 'lean', 'Verif', 'Gen', 'Items.lean')
PRIM = {'u32', 'u64', 'u128', '__m128i', '__m256i', '__m512i', 'uint8x16_t'}
MACROS = {'cfg', 'cfg_if', 'macro_rules', 'assert', 'debug_assert', 'debug_assert_eq', 'assert_eq', 'assert_ne', 'panic', 'include_str', 'unreachable', 'asm', 'write', 'compile_error', 'matches'}


def q(s):
    return '"' + s.replace('\\', '\\\\').replace('"', '\\"') + '"'


def opt(s):
    return 'none' if s is None else f'(some {q(s)})'


def text(ts):
    return ''.join((' ' if i and not t.glue else '') + t.s for i, t in enumerate(ts))


def split(ts):
    out, cur, depth = [], [], 0
    for t in ts:
        if t.s in '([{': depth += 1
        if t.s in ')]}': depth -= 1
        if t.s == ',' and depth == 0:
            out.append(cur); cur = []
        else:
            cur.append(t)
    if cur: out.append(cur)
    return out


def value(ts, env):
    """A literal, or { a + b }, with the macro's literals put in."""
    while ts and ts[0].s == '{': ts = ts[1:-1]
    ws, i = [], 0
    while i < len(ts):
        if ts[i].s == '$':
            ws.append(env[ts[i + 1].s]); i += 2
        else:
            ws.append(ts[i].s); i += 1
    if not all(w == '+' or w.isdigit() for w in ws): raise R.Refuse(f'length {ws}')
    return sum(int(w) for w in ws if w != '+')


def ty(ts, env, names):
    if ts[0].s == '[' and R.group_end(ts, 0) == len(ts):
        k = next(i for i, t in enumerate(ts) if t.s == ';')
        return f'(.array {ty(ts[1:k], env, names)} {value(ts[k+1:-1], env)})'
    if len(ts) == 1 and ts[0].s in PRIM: return f'(.prim {q(ts[0].s)})'
    if len(ts) == 1 and ts[0].s in names: return f'(.named {q(ts[0].s)})'
    return f'(.other {q(text(ts))})'


def main():
    files = sorted(f for f in os.listdir(SRC) if f.endswith('.rs') and f != 'tests.rs')
    toks = {f: R.tokenize(open(os.path.join(SRC, f)).read()) for f in files}
    own, names, instances = set(), set(), []
    for f in files:
        ts = toks[f]
        for i, t in enumerate(ts):
            if t.s == 'macro_rules': own.add(ts[i + 2].s)
            if t.s == 'struct' and ts[i + 1].s != '$': names.add(ts[i + 1].s)
    for f in files:
        ts = toks[f]
        for i, t in enumerate(ts):
            if t.k == 'id' and i + 1 < len(ts) and ts[i + 1].s == '!' and ts[i + 1].glue and ts[i + 2].s in '([{' or t.s == 'macro_rules':
                if t.s not in MACROS | own: raise R.Refuse(f'macro {f}:{t.line} {t.s}')
            if t.s == 'implement_aes' and ts[i + 1].s == '!':
                e = R.group_end(ts, i + 2)
                a = [text(x) for x in split(ts[i + 3:e - 1])]
                instances.append((t.line, dict(zip(['enc_name', 'dec_name', 'key_len', 'nr', 'keygen'], a))))
    structs, impls, statics = [], [], []
    api = {f[:-3]: [] for f in files}
    chains = []
    spaced = lambda x: ' '.join(t.s for t in x)
    # where the bodies of cfg_if! and of macro_rules! are
    spans = {f: [(i, R.group_end(toks[f], i + 2), 'cfg_if') for i, t in enumerate(toks[f]) if t.s == 'cfg_if' and toks[f][i + 1].s == '!']
             + [(i, R.group_end(toks[f], i + 3), toks[f][i + 2].s) for i, t in enumerate(toks[f]) if t.s == 'macro_rules'] for f in files}
    for f in files:
        ts = toks[f]
        i = 0
        while i < len(ts):
            t = ts[i]
            if t.k == 'id' and t.s in ('enum', 'union') or t.s in ('thread_local', 'lazy_static'): raise R.Refuse(f'{f}:{t.line} {t.s}')
            if t.k == 'id' and t.s == 'static' and not (i and ts[i - 1].s in ("'", '&')):
                mut = ts[i + 1].s == 'mut'
                j = i + 1 + mut
                k = next(x for x in range(j, len(ts)) if ts[x].s == '=')
                statics.append((f, t.line, ts[j].s, mut, text(ts[j + 2:k])))
            if t.k == 'id' and t.s == 'impl':
                k = next(x for x in range(i, len(ts)) if ts[x].s == '{')
                h = ts[i + 1:k]
                if h and h[0].s == '<': raise R.Refuse(f'generic impl {f}:{t.line}')
                if any(x.s == 'where' for x in h): raise R.Refuse(f'where {f}:{t.line}')
                fors = [x for x in range(len(h)) if h[x].s == 'for']
                neg = bool(h) and h[0].s == '!'
                if len(fors) > 1: raise R.Refuse(f'impl {f}:{t.line}')
                if fors:
                    tr, trait = h[neg:fors[0]], None
                    for x in tr:
                        if x.s == '<': break
                        if x.k == 'id': trait = x.s
                        elif x.s != '::': raise R.Refuse(f'trait {f}:{x.line}')
                    self = text(h[fors[0] + 1:])
                else:
                    trait, self = None, text(h)
                impls.append((f, t.line, trait, neg, ts[i - 1].s == 'unsafe', self))
                # the public API: traits in full, public functions with their signatures
                end = R.group_end(ts, k)
                found = []
                if fors:
                    found = ['impl ' + spaced(h[:fors[0]])]
                else:
                    x, depth = k + 1, 0
                    while x < end - 1:
                        if ts[x].s in '([{': depth += 1
                        if ts[x].s in ')]}': depth -= 1
                        if depth == 0 and ts[x].k == 'id' and ts[x].s == 'const' and ts[x + 1].s != 'fn' or ts[x].s == 'type' and depth == 0: raise R.Refuse(f'{f}:{ts[x].line}')
                        if depth == 0 and ts[x].s == 'fn':
                            b = x
                            while ts[b - 1].s not in ('}', ']', '{', ';'): b -= 1
                            o = next(y for y in range(x, end) if ts[y].s == '{')
                            if ts[b].s == 'pub' and ts[b + 1].s != '(': found.append(spaced(ts[b:o]))
                        x += 1
                self2 = spaced(h[fors[0] + 1:]) if fors else spaced(h)
                inmacro = [(a, b) for a, b, m in spans[f] if a < i < b and m == 'cfg_if']
                if not inmacro: api[f[:-3]] += [(self2, x) for x in found]
                else:
                    m = [m for a, b, m in spans[f] if a < i < b and m != 'cfg_if']
                    if f != 'lib.rs': raise R.Refuse(f'cfg_if {f}:{t.line}')
                    if m == ['declare_chain']: chains.append([(self2, x) for x in found])
                    elif found: raise R.Refuse(f'cfg_if {f}:{t.line}')
            if t.k == 'id' and t.s == 'struct':
                # attributes in front
                derives, repr_, j = [], [], i - 1
                if ts[j].s == 'pub': j -= 1
                while ts[j].s == ']':
                    o = j
                    while not (ts[o].s == '#' and R.group_end(ts, o + 1) == j + 1): o -= 1
                    at = ts[o + 2:j]
                    if at[0].s == 'derive': derives = [x.s for x in at if x.k == 'id'][1:] + derives
                    elif at[0].s == 'repr': repr_ = [text(x) for x in split(at[2:-1])]
                    elif at[0].s not in ('must_use', 'doc', 'allow'): raise R.Refuse(f'attribute {f}:{at[0].line}')
                    j = o - 1
                k = i + 1 + (2 if ts[i + 1].s == '$' else 1)
                e = R.group_end(ts, k)
                fs = []
                for x in split(ts[k + 1:e - 1]):
                    if x[0].s == 'pub':
                        x = x[1:]
                        if x[0].s == '(': x = x[R.group_end(x, 0):]
                    if ts[k].s == '{': x = x[2:]
                    fs.append(x)
                if repr_ == []: r = '.rust'
                elif repr_ == ['transparent']: r = '.transparent'
                elif repr_[0] == 'C' and len(repr_) == 2 and repr_[1].startswith('align('): r = f'(.c {int(repr_[1][6:-1])})'
                else: raise R.Refuse(f'repr {f}:{t.line} {repr_}')
                for line, env in ([(t.line, {})] if ts[i + 1].s != '$' else instances):
                    name = ts[i + 1].s if ts[i + 1].s != '$' else env[ts[i + 2].s]
                    structs.append((f, line, name, derives, r, [ty(x, env, names) for x in fs]))
                api[f[:-3]] += [('$' + ts[i + 2].s if ts[i + 1].s == '$' else ts[i + 1].s, 'impl ' + x) for x in derives]
                if any(a < i < b and m == 'cfg_if' for a, b, m in spans[f]): raise R.Refuse(f'cfg_if {f}:{t.line}')
            i += 1
    o = ['import Verif.Spec.Types', '/-', 'Every struct, impl header and static of the crate, in the order of the files.', 'Generated by tools/items.py; do not edit.', '-/',
         'namespace RustSrc', 'open RustTypes', '']
    def lst(name, type_, rows):
        o.append(f'def {name} : List {type_} := [')
        o.append(',\n'.join('  ' + r for r in rows) + ']')
    lst('structs', 'Struct', [f'⟨{q(n)}, {q("src/" + f)}, {l}, [{", ".join(map(q, d))}], {r}, [{", ".join(fs)}]⟩' for f, l, n, d, r, fs in structs])
    lst('impls', 'ImplHeader', [f'⟨{opt(tr)}, {str(neg).lower()}, {str(un).lower()}, {q(s)}, {q("src/" + f)}, {l}⟩' for f, l, tr, neg, un, s in impls])
    lst('statics', 'Static', [f'⟨{q(n)}, {str(m).lower()}, {q(t)}, {q("src/" + f)}, {l}⟩' for f, l, n, m, t in statics])
    def apis(name, rows, doc):
        o.append(f'/-- {doc} -/\ndef {name} : List (String × String) := [')
        o.append(',\n'.join(f'  ({q(a)}, {q(b)})' for a, b in sorted(rows)) + ']')
    for f in sorted(api):
        if api[f]: apis('api_' + f, api[f], f'src/{f}.rs: what it gives to users, in alphabetical order: type, and trait implemented (or derived) or public function.' if f != 'lib' else 'src/lib.rs: the same, what is outside of conditional compilation; `$name` and the like stand for the types a macro is used with.')
    if len(chains) != 2: raise R.Refuse('chains')
    for j, c in enumerate(chains): apis(f'api_chain{j}', c, f'src/lib.rs:333-424: the same for branch {j}.')
    o += ['def items : Items := ⟨structs, impls, statics⟩', 'end RustSrc', '']
    open(OUT, 'w').write('\n'.join(o))


if __name__ == '__main__':
    main()
