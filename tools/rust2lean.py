#!/usr/bin/env python3
"""Translate the Rust text of /repo/src to Lean, function by function.

Usage: rust2lean.py [SRC [OUT]]      (default: /repo/src, lean/Verif/Gen next to this tool)

The tool is a parser for the subset of Rust the crate uses (items, macro_rules!, cfg_if!, expressions), a small type
inference (literals, `.into()`, `.map(Into::into)`, raw-pointer casts), and a printer to the monad `Rust.M`. It refuses
(exits with an error) whatever it does not know. The meaning of the operations it prints is in Verif/Rust.lean,
Verif/Gen/Prelude.lean and Verif/Gen/Intrinsics.lean.
"""
import os, re, sys

HERE = os.path.dirname(os.path.abspath(__file__))
SRC = sys.argv[1] if len(sys.argv) > 1 else '/repo/src'
OUT = sys.argv[2] if len(sys.argv) > 2 else os.path.join(HERE, '..', 'lean', 'Verif', 'Gen')


class Refuse(Exception):
    pass


# ---------------------------------------------------------------------------------------------- tokens

class Tok:
    __slots__ = ('k', 's', 'line', 'glue')

    def __init__(self, k, s, line, glue):
        self.k, self.s, self.line, self.glue = k, s, line, glue   # glue: directly after the previous token

    def __repr__(self):
        return self.s


TOK = re.compile(r'''(?P<ws>\s+)|(?P<com>//[^\n]*)|(?P<str>"(?:[^"\\]|\\.)*")|(?P<life>'[a-z_]+\b(?!'))
 |(?P<int>0x[0-9a-fA-F_]+|0b[01_]+|[0-9][0-9_]*)(?P<suf>[iu](?:8|16|32|64|128|size))?
 |(?P<id>[A-Za-z_][A-Za-z0-9_]*)
 |(?P<p>::|->|=>|==|!=|>=|<=|&&|\|\||\.\.=|\.\.|[-+*/%^!&|=<>@.,;:\#$?~(){}\[\]])''', re.X)


def tokenize(text):
    out, pos, line, prev_end = [], 0, 1, -1
    while pos < len(text):
        m = TOK.match(text, pos)
        if not m:
            raise Refuse(f'token at line {line}: {text[pos:pos+20]!r}')
        k, s = m.lastgroup, m.group()
        if k == 'suf':
            k = 'int'
        if k not in ('ws', 'com'):
            out.append(Tok(k, s, line, pos == prev_end))
            prev_end = m.end()
        line += s.count('\n')
        pos = m.end()
    return out


OPEN = {'(': ')', '[': ']', '{': '}'}


def group_end(ts, i):
    """Index just after the bracket group opening at i."""
    depth = 0
    while True:
        if ts[i].k == 'p' and ts[i].s in OPEN:
            depth += 1
        elif ts[i].k == 'p' and ts[i].s in OPEN.values():
            depth -= 1
            if depth == 0:
                return i + 1
        i += 1


# ---------------------------------------------------------------------------------------------- macro_rules!

class Macro:
    def __init__(self, name, body):
        self.name, self.rules, i = name, [], 0
        while i < len(body):
            j = group_end(body, i)
            pat = body[i + 1:j - 1]
            assert body[j].s == '=>', name
            k = group_end(body, j + 1)
            self.rules.append((pat, body[j + 2:k - 1]))
            i = k
            if i < len(body) and body[i].s == ';':
                i += 1

    def expand(self, args):
        for pat, body in self.rules:
            b = self.match(pat, args)
            if b is not None:
                return self.subst(body, b)
        raise Refuse(f'no rule of {self.name}! matches')

    def match(self, pat, args):
        b = {}
        return b if self.m(pat, 0, args, 0, b) == len(args) else None

    def m(self, pat, i, args, j, b):
        while i < len(pat):
            t = pat[i]
            if t.s == '$' and pat[i + 1].s == '(':
                e = group_end(pat, i + 1)
                sub = pat[i + 2:e - 1]
                sep = None
                if pat[e].s not in '*+':
                    sep = pat[e].s
                    e += 1
                assert pat[e].s == '*' and e + 1 == len(pat), 'repetition must be last'
                reps = []
                while j < len(args):
                    if reps and sep:
                        if args[j].s != sep:
                            return None
                        j += 1
                    bb = {}
                    j2 = self.m(sub, 0, args, j, bb)
                    if j2 is None:
                        return None
                    reps.append(bb)
                    j = j2
                for k in (reps[0] if reps else {}):
                    b[k] = [r[k] for r in reps]
                return j
            if t.s == '$':
                name, frag = pat[i + 1].s, pat[i + 3].s
                if j >= len(args):
                    return None
                a = args[j]
                ok = {'ident': a.k == 'id', 'ty': a.k == 'id', 'literal': a.k in ('int', 'str')}[frag]
                if not ok:
                    return None
                b[name] = [a]
                j += 1
                i += 4
                continue
            if j >= len(args) or args[j].s != t.s:
                return None
            i += 1
            j += 1
        return j

    def subst(self, body, b):
        out, i = [], 0
        while i < len(body):
            t = body[i]
            if t.s == '$' and body[i + 1].s == '(':
                e = group_end(body, i + 1)
                sub = body[i + 2:e - 1]
                assert body[e].s == '*'
                names = {sub[q + 1].s for q in range(len(sub)) if sub[q].s == '$'}
                n = {len(b[k]) for k in names if isinstance(b[k][0], list)}
                assert len(n) == 1
                for r in range(n.pop()):
                    out += self.subst(sub, {k: (v[r] if isinstance(v[0], list) else v) for k, v in b.items()})
                i = e + 1
            elif t.s == '$':
                for a in b[body[i + 1].s]:
                    out.append(Tok(a.k, a.s, t.line, False))
                i += 2
            else:
                out.append(t)
                i += 1
        return out


# ---------------------------------------------------------------------------------------------- parser

class P:
    def __init__(self, ts, macros):
        self.ts, self.i, self.macros = ts, 0, macros

    def peek(self, n=0):
        return self.ts[self.i + n].s if self.i + n < len(self.ts) else None

    def tok(self):
        return self.ts[self.i]

    def next(self):
        self.i += 1
        return self.ts[self.i - 1]

    def eat(self, *ss):
        if all(self.peek(n) == s for n, s in enumerate(ss)):
            self.i += len(ss)
            return True
        return False

    def need(self, s):
        if self.peek() != s:
            raise Refuse(f'line {self.tok().line}: expected {s}, found {self.peek()}')
        return self.next()

    def ident(self):
        t = self.next()
        if t.k != 'id':
            raise Refuse(f'line {t.line}: identifier expected, found {t.s}')
        return t.s

    # types
    def ty(self):
        if self.eat('&'):
            if self.tok().k == 'life':
                self.next()
            mut = self.eat('mut')
            return ('ref', mut, self.ty())
        if self.eat('*'):
            mut = self.eat('mut')
            if not mut:
                self.need('const')
            return ('ptr', self.ty())
        if self.eat('['):
            t = self.ty()
            if self.eat(']'):
                return ('slice', t)
            self.need(';')
            n = self.const_expr()
            self.need(']')
            return ('arr', t, n)
        if self.eat('('):
            ts = []
            while not self.eat(')'):
                ts.append(self.ty())
                if not self.eat(','):
                    self.need(')')
                    break
            return ('tuple', tuple(ts))
        name = [self.ident()]
        while self.eat('::'):
            name.append(self.ident())
        name = '::'.join(name)
        args = []
        if self.peek() == '<':
            args = self.generic_args()
        return ('path', name, tuple(args))

    def const_expr(self):
        """A constant expression in type position: literals, const parameters, `{ a + b }`."""
        if self.eat('{'):
            a = self.const_expr()
            while self.eat('+'):
                b = self.const_expr()
                a = a + b if isinstance(a, int) and isinstance(b, int) else ('+', a, b)
            self.need('}')
            return a
        t = self.next()
        if t.k == 'int':
            return intval(t.s)[0]
        if t.k == 'id':
            return t.s
        raise Refuse(f'line {t.line}: constant expression')

    def generic_args(self):
        self.need('<')
        args = []
        while not self.eat('>'):
            if self.tok().k == 'int':
                args.append(('int',) + intval(self.next().s))
            elif self.tok().k == 'life':
                self.next()
            else:
                args.append(self.ty())
            if not self.eat(','):
                self.need('>')
                break
        return args

    # patterns
    def pat(self):
        if self.eat('&'):
            return self.pat()
        if self.eat('('):
            ps = []
            while not self.eat(')'):
                ps.append(self.pat())
                if not self.eat(','):
                    self.need(')')
                    break
            return ('ptuple', ps)
        self.eat('mut')
        return ('pvar', self.ident())

    # expressions
    BIN = [['||'], ['&&'], ['==', '!=', '<', '>', '>=', '<='], ['|'], ['^'], ['&'], ['<<', '>>'], ['+', '-'], ['*', '/', '%']]

    def expr(self):
        if self.eat('..'):
            return ('range', None, self.bin(0))
        a = self.bin(0)
        if self.eat('..'):
            if self.peek() in (']', ')', '{', None):
                return ('range', a, None)
            return ('range', a, self.bin(0))
        return a

    def op(self, level):
        s = self.peek()
        if s in ('<', '>') and self.peek(1) == s and self.ts[self.i + 1].glue:
            return s + s if s + s in self.BIN[level] else None
        return s if s in self.BIN[level] else None

    def bin(self, level):
        if level == len(self.BIN):
            return self.cast()
        a = self.bin(level + 1)
        while True:
            o = self.op(level)
            if o is None:
                return a
            self.i += 2 if o in ('<<', '>>') else 1
            a = ('bin', o, a, self.bin(level + 1))

    def cast(self):
        a = self.unary()
        while self.eat('as'):
            a = ('cast', a, self.ty())
        return a

    def unary(self):
        if self.eat('-'):
            return ('unary', '-', self.unary())
        if self.eat('!'):
            return ('unary', '!', self.unary())
        if self.eat('*'):
            return ('deref', self.unary())
        if self.eat('&'):
            mut = self.eat('mut')
            return ('ref', mut, self.unary())
        return self.postfix(self.primary())

    def postfix(self, e):
        while True:
            if self.peek() == '.' and self.ts[self.i + 1].k == 'int':
                self.next()
                e = ('field', e, int(self.next().s))
            elif self.eat('.'):
                name, gen = self.ident(), []
                if self.eat('::'):
                    gen = self.generic_args()
                if self.peek() == '(':
                    e = ('method', e, name, gen, self.args())
                else:
                    e = ('field', e, name)
            elif self.peek() == '(':
                e = ('call', e, self.args())
            elif self.eat('['):
                i = self.expr()
                self.need(']')
                e = ('index', e, i)
            elif self.eat('?'):
                e = ('try', e)
            else:
                return e

    def args(self):
        self.need('(')
        out = []
        while not self.eat(')'):
            out.append(self.expr())
            if not self.eat(','):
                self.need(')')
                break
        return out

    def primary(self):
        t = self.tok()
        if t.k == 'int':
            self.next()
            return ('int',) + intval(t.s)
        if t.k == 'str':
            self.next()
            return ('str', t.s[1:-1])
        if t.s == '(':
            self.next()
            es = []
            tup = False
            while not self.eat(')'):
                es.append(self.expr())
                if self.eat(','):
                    tup = True
                else:
                    self.need(')')
                    break
            return es[0] if len(es) == 1 and not tup else ('tuple', es)
        if t.s == '[':
            self.next()
            es = []
            while not self.eat(']'):
                es.append(self.expr())
                if self.eat(';'):
                    n = self.const_expr()
                    self.need(']')
                    return ('repeat', es[0], n)
                if not self.eat(','):
                    self.need(']')
                    break
            return ('array', es)
        if t.s == 'unsafe' or t.s == '{':
            if t.s == 'unsafe':
                self.next()
            return self.block()
        if t.s == 'if':
            self.next()
            c = self.expr()
            a = self.block()
            b = None
            if self.eat('else'):
                b = self.primary() if self.peek() == 'if' else self.block()
            return ('if', c, a, b)
        if t.s == '<':
            self.next()
            ty = self.ty()
            self.need('>')
            self.need('::')
            return ('qself', ty, self.ident())
        if t.k == 'id':
            segs, gen = [self.ident()], []
            if self.peek() == '!' and self.peek(1) in ('(', '['):
                self.next()
                e = group_end(self.ts, self.i)
                body = self.ts[self.i + 1:e - 1]
                line = self.tok().line
                self.i = e
                name = segs[0]
                if name in self.macros:
                    ts = self.macros[name].expand(body)
                    p = P(ts, self.macros)
                    r = p.expr()
                    if p.i < len(ts):       # statements
                        r = P([Tok('op', '{', line, False)] + ts + [Tok('op', '}', line, False)], self.macros).block()
                    return r
                return ('macro', name, body, line)
            while self.eat('::'):
                if self.peek() == '<':
                    gen = self.generic_args()
                else:
                    segs.append(self.ident())
            if self.peek() == '{' and segs[-1][0].isupper() and self.peek(2) == ':':
                self.next()
                fs = []
                while not self.eat('}'):
                    f = self.ident()
                    self.need(':')
                    fs.append((f, self.expr()))
                    if not self.eat(','):
                        self.need('}')
                        break
                return ('struct', segs[-1], fs)
            return ('path', segs, gen)
        raise Refuse(f'line {t.line}: expression expected, found {t.s}')

    def attrs(self):
        out = []
        while self.peek() == '#':
            self.next()
            self.eat('!')
            e = group_end(self.ts, self.i)
            out.append(self.ts[self.i + 1:e - 1])
            self.i = e
        return out

    def block(self):
        self.need('{')
        stmts, tail = [], None
        while not self.eat('}'):
            at = self.attrs()
            cfg = [a for a in at if a and a[0].s == 'cfg']
            if self.eat('let'):
                p = self.pat()
                ty = self.ty() if self.eat(':') else None
                self.need('=')
                e = self.expr()
                self.need(';')
                stmts.append(('let', p, ty, e))
            elif self.eat('for'):
                p = self.pat()
                self.need('in')
                e = self.expr()
                stmts.append(('for', p, e, self.block()))
            elif self.peek() == 'fn' or (self.peek() == 'unsafe' and self.peek(1) == 'fn'):
                stmts.append(('fn', self.fn()))
            else:
                e = self.expr()
                if cfg:
                    stmts.append(('cfgblock', P(cfg[0], {}).cfg_attr(), e))
                elif self.eat('='):
                    r = self.expr()
                    self.need(';')
                    stmts.append(('assign', e, r))
                elif self.eat(';'):
                    stmts.append(('expr', e))
                elif self.peek() == '}':
                    tail = e
                elif e[0] in ('block', 'if'):
                    stmts.append(('expr', e))
                else:
                    raise Refuse(f'line {self.tok().line}: statement')
        return ('block', stmts, tail)

    # cfg predicates
    def cfg_attr(self):
        self.need('cfg')
        self.need('(')
        c = self.cfg()
        self.need(')')
        return c

    def cfg(self):
        name = self.ident()
        if name in ('all', 'any', 'not'):
            self.need('(')
            cs = []
            while not self.eat(')'):
                cs.append(self.cfg())
                if not self.eat(','):
                    self.need(')')
                    break
            return (name, cs)
        self.need('=')
        return ('is', name, self.next().s[1:-1])

    # items
    def generics(self):
        consts, types = [], []
        if self.eat('<'):
            while not self.eat('>'):
                if self.eat('const'):
                    n = self.ident()
                    self.need(':')
                    consts.append((n, self.ty()))
                else:
                    n = self.ident()
                    b = None
                    if self.eat(':'):
                        b = self.ty()
                    types.append((n, b))
                if not self.eat(','):
                    self.need('>')
                    break
        return consts, types

    def fn(self):
        while self.peek() in ('pub', 'const', 'unsafe'):
            self.next()
            if self.peek() == '(':
                self.i = group_end(self.ts, self.i)
        line0 = self.need('fn').line
        j = self.i - 2
        while j >= 0 and self.ts[j].s in ('pub', 'unsafe'):
            j -= 1
        const = j >= 0 and self.ts[j].s == 'const'
        name = self.ident()
        consts, types = self.generics()
        self.need('(')
        params = []
        while not self.eat(')'):
            if self.eat('self'):
                params.append((('pvar', 'self'), ('path', 'Self', ())))
            elif self.eat('&', 'self'):
                params.append((('pvar', 'self'), ('ref', False, ('path', 'Self', ()))))
            elif self.eat('&', 'mut', 'self'):
                params.append((('pvar', 'self'), ('ref', True, ('path', 'Self', ()))))
            else:
                p = self.pat()
                self.need(':')
                params.append((p, self.ty()))
            if not self.eat(','):
                self.need(')')
                break
        ret = self.ty() if self.eat('->') else ('tuple', ())
        if self.eat(';'):
            return dict(name=name, consts=consts, types=types, params=params, ret=ret, body=None, lines=(line0, line0))
        body = self.block()
        return dict(name=name, consts=consts, types=types, params=params, ret=ret, body=body,
                    lines=(line0, self.ts[self.i - 1].line), const=const)

    def items(self, choose):
        """All items; `choose(branches)` picks the branch of a cfg_if! as an index (or None to skip it)."""
        out = []
        while self.i < len(self.ts):
            attr0 = self.tok().line
            at = self.attrs()
            line0 = self.tok().line
            if any(a and a[0].s == 'cfg' and a[2].s == 'test' for a in at):
                if self.peek() != 'mod':
                    raise Refuse(f'line {line0}: cfg(test)')
                if self.peek(2) == '{':
                    e = group_end(self.ts, self.i + 2)
                    out.append(('testmod', dict(name=self.peek(1), items=P(self.ts[self.i + 3:e - 1], dict(self.macros)).items(choose))))
                else:
                    out.append(('testmod', dict(name=self.peek(1), items=None)))
                self.skip_item()
                continue
            j = self.i
            while self.ts[j].s in ('pub', 'unsafe', 'const') and self.ts[j + 1].s != ':' :
                j += 1
                if self.ts[j].s == '(':
                    j = group_end(self.ts, j)
                if self.ts[j - 1].s == 'const' and self.ts[j].k == 'id' and self.ts[j].s not in ('fn', 'unsafe'):
                    j -= 1
                    break
            kw = self.ts[j].s
            if kw == 'fn':
                out.append(('fn', dict(self.fn(), test=any([x.s for x in a] == ['test'] for a in at))))
            elif kw in ('use', 'mod', 'trait'):
                self.skip_item()
            elif kw == 'struct':
                self.i = j + 1
                name = self.ident()
                fields = []
                if self.eat('('):
                    while not self.eat(')'):
                        if self.eat('pub') and self.peek() == '(':
                            self.i = group_end(self.ts, self.i)
                        fields.append((len(fields), self.ty()))
                        if not self.eat(','):
                            self.need(')')
                            break
                    self.need(';')
                else:
                    self.need('{')
                    while not self.eat('}'):
                        f = self.ident()
                        self.need(':')
                        fields.append((f, self.ty()))
                        if not self.eat(','):
                            self.need('}')
                            break
                derive, repr_ = [], None
                for a in at:
                    if a[0].s == 'derive':
                        derive += [x.s for x in a[2:-1] if x.s != ',']
                    if a[0].s == 'repr':
                        repr_ = a[2].s
                out.append(('struct', dict(name=name, fields=fields, derive=derive, repr=repr_,
                                           lines=(attr0, self.ts[self.i - 1].line))))
            elif kw in ('static', 'const'):
                self.i = j + 1
                name = self.ident()
                self.need(':')
                ty = self.ty()
                self.need('=')
                e = self.expr()
                self.need(';')
                out.append(('const', dict(name=name, ty=ty, expr=e, lines=(line0, self.ts[self.i - 1].line))))
            elif kw == 'impl':
                self.i = j + 1
                line = line0
                trait, ty = None, self.ty()
                if self.eat('for'):
                    trait, ty = ty, self.ty()
                self.need('{')
                fns, assoc = [], {}
                while not self.eat('}'):
                    self.attrs()
                    if self.eat('type'):
                        n = self.ident()
                        self.need('=')
                        assoc[n] = self.ty()
                        self.need(';')
                    else:
                        fns.append(self.fn())
                out.append(('impl', dict(trait=trait, ty=ty, fns=fns, assoc=assoc, line=line)))
            elif kw == 'extern':
                self.i = j + 2
                self.need('{')
                while not self.eat('}'):
                    link = [a[2].s[1:-1] for a in self.attrs() if a[0].s == 'link_name']
                    out.append(('extern', dict(self.fn(), link=link[0])))
            elif kw == 'macro_rules':
                self.i = j + 2
                name = self.ident()
                e = group_end(self.ts, self.i)
                self.macros[name] = Macro(name, self.ts[self.i + 1:e - 1])
                self.i = e
            elif kw == 'cfg_if' :
                self.i = j + 2
                e = group_end(self.ts, self.i)
                q = P(self.ts[self.i + 1:e - 1], self.macros)
                self.i = e
                branches = []
                while q.i < len(q.ts):
                    cond = None
                    if q.eat('if'):
                        cond = P(q.attrs()[0], {}).cfg_attr()
                    e2 = group_end(q.ts, q.i)
                    branches.append((cond, q.ts[q.i + 1:e2 - 1]))
                    q.i = e2
                    if not q.eat('else'):
                        break
                b = choose(branches, line0)
                if b is not None:
                    out += P(branches[b][1], self.macros).items(choose)
            elif kw == 'lazy_static':
                self.i = j + 2
                e = group_end(self.ts, self.i)
                q = P(self.ts[self.i + 1:e - 1], self.macros)
                self.i = e
                while q.i < len(q.ts):
                    l0 = q.need('static').line
                    q.need('ref')
                    name = q.ident()
                    q.need(':')
                    ty = q.ty()
                    q.need('=')
                    x = q.expr()
                    l1 = q.need(';').line
                    out.append(('lazy', dict(name=name, params=[], ret=ty, body=('block', [], x), consts=[], types=[],
                                             lines=(l0, l1))))
            elif self.ts[j].k == 'id' and self.ts[j + 1].s == '!':
                name = kw
                e = group_end(self.ts, j + 2)
                body = self.ts[j + 3:e - 1]
                self.i = e
                self.eat(';')
                if name not in self.macros:
                    raise Refuse(f'line {line0}: macro {name}!')
                sub = P(self.macros[name].expand(body), self.macros).items(choose)
                for kind, it in sub:
                    it.setdefault('via', []).append(line0)
                out += sub
            else:
                raise Refuse(f'line {line0}: item {kw}')
        return out

    def skip_item(self):
        while True:
            if self.peek() == '{':
                self.i = group_end(self.ts, self.i)
                self.eat(';')
                return
            if self.peek() == '(' or self.peek() == '[':
                self.i = group_end(self.ts, self.i)
                continue
            if self.next().s == ';':
                return


def intval(s):
    m = re.match(r'^(0x[0-9a-fA-F_]+|0b[01_]+|[0-9_]+)([iu](?:8|16|32|64|128|size))?$', s)
    return int(m.group(1).replace('_', ''), 0), m.group(2)


# ---------------------------------------------------------------------------------------------- types

class TVar:
    def __init__(self):
        self.ref = None


def find(t):
    while isinstance(t, TVar) and t.ref is not None:
        t = t.ref
    return t


def full(t):
    """Replace solved variables everywhere."""
    t = find(t)
    if isinstance(t, tuple):
        return tuple(full(x) for x in t)
    return t


def unify(a, b):
    a, b = find(a), find(b)
    if a is b:
        return True
    if isinstance(a, TVar):
        a.ref = b
        return True
    if isinstance(b, TVar):
        b.ref = a
        return True
    if isinstance(a, tuple) and isinstance(b, tuple):
        return len(a) == len(b) and all([unify(x, y) for x, y in zip(a, b)])
    return a == b


def unifiable(a, b):
    """Could a and b be equal? (no binding)"""
    a, b = find(a), find(b)
    if isinstance(a, TVar) or isinstance(b, TVar):
        return True
    if isinstance(a, tuple) and isinstance(b, tuple):
        return len(a) == len(b) and all(unifiable(x, y) for x, y in zip(a, b))
    return a == b


def solved(t):
    t = find(t)
    if isinstance(t, TVar):
        return False
    return all(solved(x) for x in t) if isinstance(t, tuple) else True


BITS = {'u8': 8, 'u32': 32, 'u64': 64, 'u128': 128, 'i32': 32, 'i64': 64}
LEANPRIM = {'u8': 'U8', 'u32': 'U32', 'u64': 'U64', 'u128': 'U128', 'usize': 'Nat', 'i32': 'BitVec 32', 'i64': 'BitVec 64',
            'bool': 'Bool'}
REGS = {'__m128i': 'IsaX86.M128i', '__m256i': 'IsaX86.M256i', '__m512i': 'IsaX86.M512i',
        'uint8x16_t': 'IsaArm.U8x16', 'uint32x4_t': 'IsaArm.U8x16', 'uint64x2_t': 'IsaArm.U8x16'}

# The intrinsics the crate imports from core::arch, as declared there (constants are const generics).
INTRIN = '''
fn _mm_loadu_si128(mem_addr: *const __m128i) -> __m128i;
fn _mm_storeu_si128(mem_addr: *mut __m128i, a: __m128i);
fn _mm_and_si128(a: __m128i, b: __m128i) -> __m128i;
fn _mm_or_si128(a: __m128i, b: __m128i) -> __m128i;
fn _mm_xor_si128(a: __m128i, b: __m128i) -> __m128i;
fn _mm_set1_epi64x(a: i64) -> __m128i;
fn _mm_setzero_si128() -> __m128i;
fn _mm_testz_si128(a: __m128i, mask: __m128i) -> i32;
fn _mm_aesenc_si128(a: __m128i, round_key: __m128i) -> __m128i;
fn _mm_aesdec_si128(a: __m128i, round_key: __m128i) -> __m128i;
fn _mm_aesenclast_si128(a: __m128i, round_key: __m128i) -> __m128i;
fn _mm_aesdeclast_si128(a: __m128i, round_key: __m128i) -> __m128i;
fn _mm_aesimc_si128(a: __m128i) -> __m128i;
fn _mm_aeskeygenassist_si128<const IMM8: i32>(a: __m128i) -> __m128i;
fn _mm_bslli_si128<const IMM8: i32>(a: __m128i) -> __m128i;
fn _mm_shuffle_epi32<const IMM8: i32>(a: __m128i) -> __m128i;
fn _mm_unpacklo_epi64(a: __m128i, b: __m128i) -> __m128i;
fn _mm_alignr_epi8<const IMM8: i32>(a: __m128i, b: __m128i) -> __m128i;
fn _mm256_loadu_si256(mem_addr: *const __m256i) -> __m256i;
fn _mm256_storeu_si256(mem_addr: *mut __m256i, a: __m256i);
fn _mm256_and_si256(a: __m256i, b: __m256i) -> __m256i;
fn _mm256_or_si256(a: __m256i, b: __m256i) -> __m256i;
fn _mm256_xor_si256(a: __m256i, b: __m256i) -> __m256i;
fn _mm256_set1_epi64x(a: i64) -> __m256i;
fn _mm256_setzero_si256() -> __m256i;
fn _mm256_testz_si256(a: __m256i, b: __m256i) -> i32;
fn _mm256_setr_m128i(lo: __m128i, hi: __m128i) -> __m256i;
fn _mm256_broadcastsi128_si256(a: __m128i) -> __m256i;
fn _mm256_extracti128_si256<const IMM1: i32>(a: __m256i) -> __m128i;
fn _mm256_inserti128_si256<const IMM1: i32>(a: __m256i, b: __m128i) -> __m256i;
fn _mm256_castsi128_si256(a: __m128i) -> __m256i;
fn _mm256_aesenc_epi128(a: __m256i, round_key: __m256i) -> __m256i;
fn _mm256_aesdec_epi128(a: __m256i, round_key: __m256i) -> __m256i;
fn _mm256_aesenclast_epi128(a: __m256i, round_key: __m256i) -> __m256i;
fn _mm256_aesdeclast_epi128(a: __m256i, round_key: __m256i) -> __m256i;
fn _mm512_loadu_si512(mem_addr: *const __m512i) -> __m512i;
fn _mm512_storeu_si512(mem_addr: *mut __m512i, a: __m512i);
fn _mm512_and_si512(a: __m512i, b: __m512i) -> __m512i;
fn _mm512_or_si512(a: __m512i, b: __m512i) -> __m512i;
fn _mm512_xor_si512(a: __m512i, b: __m512i) -> __m512i;
fn _mm512_set1_epi64(a: i64) -> __m512i;
fn _mm512_setzero_si512() -> __m512i;
fn _mm512_cmpeq_epi64_mask(a: __m512i, b: __m512i) -> u8;
fn _mm512_test_epi64_mask(a: __m512i, b: __m512i) -> u8;
fn _mm512_castsi256_si512(a: __m256i) -> __m512i;
fn _mm512_inserti64x4<const IMM1: i32>(a: __m512i, b: __m256i) -> __m512i;
fn _mm512_broadcast_i32x4(a: __m128i) -> __m512i;
fn _mm512_broadcast_i64x4(a: __m256i) -> __m512i;
fn _mm512_extracti32x4_epi32<const IMM2: i32>(a: __m512i) -> __m128i;
fn _mm512_extracti64x4_epi64<const IMM1: i32>(a: __m512i) -> __m256i;
fn _mm512_aesenc_epi128(a: __m512i, round_key: __m512i) -> __m512i;
fn _mm512_aesdec_epi128(a: __m512i, round_key: __m512i) -> __m512i;
fn _mm512_aesenclast_epi128(a: __m512i, round_key: __m512i) -> __m512i;
fn _mm512_aesdeclast_epi128(a: __m512i, round_key: __m512i) -> __m512i;
fn vld1q_u8(ptr: *const u8) -> uint8x16_t;
fn vst1q_u8(ptr: *mut u8, a: uint8x16_t);
fn vandq_u8(a: uint8x16_t, b: uint8x16_t) -> uint8x16_t;
fn vorrq_u8(a: uint8x16_t, b: uint8x16_t) -> uint8x16_t;
fn veorq_u8(a: uint8x16_t, b: uint8x16_t) -> uint8x16_t;
fn vmvnq_u8(a: uint8x16_t) -> uint8x16_t;
fn vdupq_n_u8(value: u8) -> uint8x16_t;
fn vdupq_n_u32(value: u32) -> uint32x4_t;
fn vreinterpretq_u64_u8(a: uint8x16_t) -> uint64x2_t;
fn vreinterpretq_u32_u8(a: uint8x16_t) -> uint32x4_t;
fn vreinterpretq_u8_u32(a: uint32x4_t) -> uint8x16_t;
fn vgetq_lane_u64<const IMM5: i32>(v: uint64x2_t) -> u64;
fn vgetq_lane_u32<const IMM5: i32>(v: uint32x4_t) -> u32;
fn vaeseq_u8(data: uint8x16_t, key: uint8x16_t) -> uint8x16_t;
fn vaesdq_u8(data: uint8x16_t, key: uint8x16_t) -> uint8x16_t;
fn vaesmcq_u8(data: uint8x16_t) -> uint8x16_t;
fn vaesimcq_u8(data: uint8x16_t) -> uint8x16_t;
'''


# Leakage mode: the same functions with the trace of what they do, in the monad of Verif/Model/Leak.lean. One event per
# operator, cast, byte-order conversion, transmute, instruction, memory access, bounds check, branch and loop iteration; none
# for moves, arithmetic on usize (lengths, loop counters), overflow checks, debug assertions and constants.
LEAK = False
K = 'Aes.Leak.'
ARRS = ['TE0', 'TE1', 'TE2', 'TE3', 'TE4', 'TD0', 'TD1', 'TD2', 'TD3', 'TD4', 'RCON']
LOP = {'&': 'and', '|': 'or', '^': 'xor', '<<': 'shl', '>>': 'shr'}
# intrinsics that are constants or changes of type
QUIET = ('_mm_set1_epi64x', '_mm_setzero_si128', '_mm256_set1_epi64x', '_mm256_setzero_si256', '_mm512_set1_epi64',
         '_mm512_setzero_si512', 'vdupq_n_u8', 'vreinterpretq_u64_u8', 'vreinterpretq_u32_u8', 'vreinterpretq_u8_u32')


def pv(name):
    """A function of Verif/Rust.lean, or its leakage version."""
    return K + name if LEAK else name


def quiet(code):
    return f'quiet ({code})' if LEAK else code


def mon():
    return 'Aes.Leak.L' if LEAK else 'M'


class Sig:
    """A callable: Lean name, const generics, type generics (with the source type of a From bound), parameters,
    indices of the parameters returned, result, whether the Lean function is pure."""

    def __init__(self, lean, params, ret, pure, outs=(), consts=(), types=()):
        self.lean, self.params, self.ret, self.pure = lean, params, ret, pure
        self.outs, self.consts, self.types = list(outs), list(consts), list(types)
        self.value = None       # leakage mode: the value-level name of a `const fn`


class E:
    def __init__(self, code, ty, act=False, **k):
        self.code, self.ty, self.act, self.k = code, ty, act, k


def par(c):
    if re.match(r'^[\w.#\']+$', c) or (c[0] in '(⟨' and balanced(c)) or c.startswith('#v[') and balanced(c[2:]) \
            or re.match(r'^[\w.]+\[\d+\]$', c):
        return c
    return f'({c})'


def balanced(c):
    d = 0
    for n, ch in enumerate(c):
        if ch in '([⟨{':
            d += 1
        elif ch in ')]⟩}':
            d -= 1
            if d == 0:
                return n == len(c) - 1
    return False


class Adt:
    def __init__(self, lean, fields, abstract=False):
        self.lean, self.fields, self.abstract, self.m = lean, fields, abstract, {}


OPTRAIT = {'&': 'bitand', '|': 'bitor', '^': 'bitxor'}
LEANOP = {'&': '&&&', '|': '|||', '^': '^^^'}


class Module:
    """One generated Lean namespace."""

    def __init__(self, file, ns):
        self.file, self.ns = file, ns
        self.adts, self.froms, self.fns, self.consts = {}, [], {}, {}
        self.out, self.pending, self.prefix = [], {}, False
        self.externs, self.lazy = {}, set()
        for n, f in INTRINS.items():
            if LEAK and n not in QUIET:
                f = Sig(f.lean, f.params, f.ret, False, f.outs, f.consts)
            self.fns[n] = f

    # -- types from the AST
    def ty(self, t, self_ty=None, assoc=None):
        k = t[0]
        if k == 'ref':
            return self.ty(t[2], self_ty, assoc)
        if k == 'arr':
            return ('arr', self.ty(t[1], self_ty, assoc), t[2])
        if k == 'slice':
            return ('slice', self.ty(t[1], self_ty, assoc))
        if k == 'tuple':
            return ('tuple', tuple(self.ty(x, self_ty, assoc) for x in t[1])) if t[1] else 'unit'
        if k == 'ptr':
            return ('ptr', self.ty(t[1], self_ty, assoc))
        n, args = t[1], t[2]
        if n == 'Self':
            return self_ty
        if n.startswith('Self::'):
            return self.ty(assoc[n[6:]], self_ty, assoc)
        if n == 'Result':
            return ('res', self.ty(args[0], self_ty, assoc), self.ty(args[1], self_ty, assoc))
        if n in LEANPRIM:
            return n
        if n in REGS:
            return ('reg', n)
        if n in self.adts:
            return ('adt', n)
        if n in getattr(self, 'tyvars', {}):
            return ('tyvar', n)
        raise Refuse(f'{self.file}: type {n}')

    def lean(self, t):
        t = full(t)
        if isinstance(t, str):
            return {'unit': 'Unit'}.get(t) or LEANPRIM[t]
        k = t[0]
        if k in ('arr', 'view'):
            return f'Vector {par(self.lean(t[1]))} {par(str(t[2]))}'
        if k == 'slice':
            return f'List {par(self.lean(t[1]))}'
        if k == 'tuple':
            return ' × '.join(par(self.lean(x)) if isinstance(find(x), tuple) and find(x)[0] == 'tuple' else self.lean(x)
                              for x in t[1])
        if k == 'adt':
            return self.adts[t[1]].lean
        if k == 'reg':
            return REGS[t[1]]
        if k == 'res':
            return f'Except {par(self.lean(t[2]))} {par(self.lean(t[1]))}'
        if k == 'tyvar':
            return t[1]
        raise Refuse(f'lean type {t}')

    # -- declarations
    def add_fn(self, f, name, self_ty=None, assoc=None, key=None):
        """Register a function; it is translated when first needed."""
        key = key or name
        self.pending[key] = (f, name, self_ty, assoc)
        return key

    def sig(self, key):
        if key in self.pending:
            f, name, self_ty, assoc = self.pending.pop(key)
            self.fns[key] = FnTr(self, f, name, self_ty, assoc).run()
        return self.fns.get(key)

    def emit(self, text):
        self.out.append(text)

    def cite(self, f):
        a, b = f['lines']
        s = f'src/{f.get("file", self.file)}:{a}' + (f'-{b}' if b != a else '')
        for v in f.get('via', []):
            s += f',{v}'
        return s


def find_from(mod, src, dst):
    c = [f for f in mod.froms if unifiable(f[0], src) and unifiable(f[1], dst)]
    return c


class FnTr:
    """Translation of one function."""

    def __init__(self, mod, f, name, self_ty, assoc):
        self.mod, self.f, self.name, self.self_ty, self.assoc = mod, f, name, self_ty, assoc

    def refuse(self, msg):
        raise Refuse(f'{self.mod.file}:{self.f["lines"][0]} {self.name}: {msg}')

    def run(self):
        f, mod = self.f, self.mod
        mod.tyvars = dict(f['types'])
        self.consts = [(n, mod.ty(t)) for n, t in f['consts']]
        self.tparams = []
        for n, b in f['types']:
            if b is None or b[1] != 'From':
                self.refuse(f'bound of {n}')
            self.tparams.append((n, mod.ty(b[2][0])))
        saved = mod.froms
        mod.froms = saved + [(src, ('tyvar', n), Sig(f'from_{n}', [src], ('tyvar', n), False)) for n, src in self.tparams]
        try:
            return self.run1()
        finally:
            mod.froms = saved

    def run1(self):
        f, mod = self.f, self.mod
        self.ret = mod.ty(f['ret'], self.self_ty, self.assoc)
        params = [(p, mod.ty(t, self.self_ty, self.assoc)) for p, t in f['params']]
        self.outs = [i for i, (p, t) in enumerate(f['params']) if t[0] == 'ref' and t[1]]
        self.known = []
        for _ in range(8):
            self.fresh_log, self.hoisted, self.monadic = [], [], LEAK
            self.env, self.viewof, self.ptrs = {}, {}, {}
            for n, t in self.consts:
                self.env[n] = t
            lines, pnames = [], []
            for i, (p, t) in enumerate(params):
                if p[0] == 'pvar':
                    pnames.append(p[1])
                    self.env[p[1]] = t
                else:
                    pnames.append(f'p{i}')
                    lines.append(f'let {self.pat(p, t)} := p{i}')
            self.lines = lines
            res = self.body(f['body'])
            new = [full(t) for t in self.fresh_log]
            if new == self.known and all(solved(t) for t in new):
                break
            self.known = new
        else:
            self.refuse(f'types not inferred: {new}')
        ret_ty = self.ret
        outs_ty = [params[i][1] for i in self.outs]
        lean_ret = ' × '.join([par(mod.lean(t)) if '×' in mod.lean(t) and len(outs_ty) + (ret_ty != 'unit') > 1
                               else mod.lean(t) for t in outs_ty + ([ret_ty] if ret_ty != 'unit' or not outs_ty else [])])
        if self.monadic:
            lean_ret = f'{mon()} {par(lean_ret)}'
        sig = ''
        for n, t in self.consts:
            sig += f' ({n} : {mod.lean(t)})'
        for n, src in self.tparams:
            sig += f' {{{n} : Type}} (from_{n} : {mod.lean(src)} → {mon()} {n})'
        for nme, (p, t) in zip(pnames, params):
            sig += f' ({nme} : {mod.lean(t)})'
        doc = f'/-- {mod.cite(f)} `{f["name"]}`. -/'
        body = '\n'.join('  ' + l for l in res)
        if self.monadic and (len(res) > 1 or '(←' in body):
            mod.emit(f'{doc}\ndef {self.name}{sig} : {lean_ret} := do\n{body}\n')
        else:
            mod.emit(f'{doc}\ndef {self.name}{sig} : {lean_ret} :=\n{body}\n')
        s = Sig(self.name, [t for p, t in params], ret_ty, not self.monadic, self.outs, self.consts, self.tparams)
        if LEAK and f.get('const'):
            s.value = f'RustSrc.{mod.vns}.{self.name}'
        return s

    # -- helpers
    def fresh(self):
        n = len(self.fresh_log)
        t = self.known[n] if n < len(self.known) and not isinstance(self.known[n], TVar) else None
        # partially solved types are restarted from their skeleton
        v = TVar()
        if t is not None and solved(t):
            v.ref = t
        self.fresh_log.append(v)
        return v

    def val(self, e):
        """Lean code of the value of e (binds the action if e is one)."""
        if e.act:
            self.monadic = True
            return f'(← {e.code})'
        return par(e.code)

    def want(self, e, ty):
        """Coerce e to the type."""
        if ty is None:
            return e
        a, b = find(e.ty), find(ty)
        if isinstance(b, tuple) and b[0] == 'slice' and isinstance(a, tuple) and a[0] in ('arr', 'view'):
            if not unify(a[1], b[1]):
                self.refuse(f'type mismatch {full(a)} vs {full(b)}')
            return E(f'{self.val(e)}.toList', ty)
        if not unify(e.ty, ty):
            self.refuse(f'type mismatch {full(e.ty)} vs {full(ty)}: {e.code}')
        return e

    def pat(self, p, t):
        if p[0] == 'pvar':
            self.env[p[1]] = t
            self.viewof.pop(p[1], None)
            self.ptrs.pop(p[1], None)
            return p[1]
        t = find(t)
        if not (isinstance(t, tuple) and t[0] == 'tuple' and len(t[1]) == len(p[1])):
            self.refuse('tuple pattern')
        return '(' + ', '.join(self.pat(q, u) for q, u in zip(p[1], t[1])) + ')'

    def patty(self, p):
        return self.fresh() if p[0] == 'pvar' else ('tuple', tuple(self.patty(q) for q in p[1]))

    def let(self, lhs, e, ty=None):
        asc = f' : {ty}' if ty else ''
        if e.act:
            self.monadic = True
            self.lines.append(f'let {lhs}{asc} ← {e.code}')
        else:
            self.lines.append(f'let {lhs}{asc} := {e.code}')

    # -- blocks
    def body(self, blk):
        """Lines of the function body, with the result (and the out parameters) at the end."""
        assert blk[0] == 'block'
        outs = []
        for i in self.outs:
            p = self.f['params'][i][0]
            outs.append(p)

        def outval():
            return [self.patval(p) for p in outs]
        r = self.tail_block(blk, self.ret, outval)
        return r

    def patval(self, p):
        return p[1] if p[0] == 'pvar' else '(' + ', '.join(self.patval(q) for q in p[1]) + ')'

    def tail_block(self, blk, ret, outval):
        stmts, tail = blk[1], blk[2]
        # a tail `unsafe { .. }` or cfg-selected pair of blocks or `if`
        n = len(stmts)
        if tail is None and n >= 2 and all(s[0] == 'cfgblock' for s in stmts[-2:]):
            for s in stmts[:-2]:
                self.stmt(s)
            (_, c1, b1), (_, c2, b2) = stmts[-2:]
            if c1 != ('not', [c2]):
                self.refuse('cfg blocks are not complementary')
            return self.tail_if(cfg_lean(c2), b2, b1, ret, outval)
        if tail is None and n and stmts[-1][0] == 'expr' and stmts[-1][1][0] == 'block' and ret != 'unit':
            stmts, tail = stmts[:-1], stmts[-1][1]
        for s in stmts:
            self.stmt(s)
        if tail is not None and tail[0] == 'block':
            return self.tail_block(tail, ret, outval)
        if tail is not None and tail[0] == 'if':
            if tail[1][0] == 'macro' and tail[1][1] == 'cfg':
                return self.tail_if(cfg_lean(P(tail[1][2], {}).cfg()), tail[2], tail[3], ret, outval)
            c = self.ex(tail[1], 'bool')
            if LEAK:
                self.let('cond', c)
                self.lines.append(f'{K}branch cond')
                return self.tail_if('cond', tail[2], tail[3], ret, outval)
            return self.tail_if(self.val(c), tail[2], tail[3], ret, outval)
        o = outval()
        if tail is None:
            if ret != 'unit':
                self.refuse('missing result')
            code = o[0] if len(o) == 1 else '(' + ', '.join(o) + ')' if o else '()'
            self.result(E(code, 'unit'))
        else:
            e = self.want(self.ex(tail, ret), ret)
            if not o:
                self.result(e)
            else:
                self.result(E('(' + ', '.join(o + [self.val(e)]) + ')', ret))
        return self.lines

    def result(self, e):
        if e.act:
            self.monadic = True
        self.lines.append(('RESULT', e))

    def tail_if(self, cond, a, b, ret, outval):
        saved = (dict(self.env), dict(self.viewof), dict(self.ptrs), self.lines)
        branches = []
        for blk in (a, b):
            self.env, self.viewof, self.ptrs = dict(saved[0]), dict(saved[1]), dict(saved[2])
            self.lines = []
            branches.append(self.tail_block(blk, ret, outval))
        self.lines = saved[3]
        self.lines.append(('IF', cond, branches[0], branches[1]))
        return self.lines

    def render(self, lines):
        out = []
        for l in lines:
            if isinstance(l, str):
                out += l.split('\n')
            elif l[0] == 'RESULT':
                e = l[1]
                if e.act:
                    out += e.code.split('\n')
                else:
                    out += ((f'pure {par(e.code)}') if self.monadic else e.code).split('\n')
            else:
                for kw, br in ((f'if {l[1]} then', l[2]), ('else', l[3])):
                    r = self.render(br)
                    out.append(kw + (' do' if self.monadic and len(r) > 0 else ''))
                    out += ['  ' + x for x in r]
        return out

    # -- statements
    def stmt(self, s):
        k = s[0]
        if k == 'fn':
            f = s[1]
            name = f'{self.name}_{f["name"]}'
            key = (id(self.f), f['name'])
            if key not in self.mod.fns:
                saved = self.mod.tyvars
                self.mod.fns[key] = FnTr(self.mod, f, name, None, None).run()
                self.mod.tyvars = saved
            self.env[f['name']] = ('localfn', key)
        elif k == 'let':
            _, p, ty, e = s
            t = self.mod.ty(ty, self.self_ty, self.assoc) if ty else None
            if isinstance(t, tuple) and t[0] == 'ptr':
                q = self.ex(e, None)
                self.env[p[1]] = ('ptrvar',)
                self.ptrs[p[1]] = E('', ('ptr', t[1]), **q.k)
                return
            outs = self.out_call(e, p)
            if outs:
                return
            if t is None:
                t = self.patty(p)
            v = self.want(self.ex(e, t), t)
            if isinstance(find(t), tuple) and find(t)[0] == 'view':
                if p[0] != 'pvar':
                    self.refuse('view pattern')
                self.viewof = {a: b for a, b in self.viewof.items() if b != p[1]}
                name = self.pat(p, t)
                self.viewof[v.k['base']] = name
                self.let(name, v, self.mod.lean(t) if solved(t) else None)
                return
            asc = None
            if p[0] == 'pvar' and solved(t):
                asc = self.mod.lean(t) if not isinstance(full(t), tuple) or full(t)[0] != 'tyvar' else None
            self.let(self.pat(p, t), v, asc)
        elif k == 'assign':
            self.assign(s[1], s[2])
        elif k == 'for':
            self.for_(s)
        elif k == 'expr':
            e = s[1]
            if e[0] == 'block':
                names = [q for st in e[1] if st[0] == 'let' for q in pnames(st[1])]
                if any(q in self.env for q in names):
                    self.refuse('shadowing in an inner block')
                for st in e[1] + ([('expr', e[2])] if e[2] is not None else []):
                    self.stmt(st)
            elif e[0] == 'macro':
                self.macro_stmt(e)
            elif not self.out_call(e, None):
                self.refuse(f'expression statement {e}')
        else:
            self.refuse(f'statement {k}')

    def macro_stmt(self, e):
        p = P(e[2], self.mod.macros)
        if e[1] == 'assert':
            c = self.ex(p.expr(), 'bool')
            self.monadic = True
            self.lines.append(f'{pv("assert")} {self.val(c)}')
        elif e[1] == 'assert_ne':
            a = p.expr()
            p.need(',')
            c = self.ex(('bin', '!=', a, p.expr()), 'bool')
            self.monadic = True
            self.lines.append(f'{pv("assert")} {self.val(c)}')
        elif e[1] == 'assert_eq':
            a = p.expr()
            p.need(',')
            c = self.ex(('bin', '==', a, p.expr()), 'bool')
            self.monadic = True
            self.lines.append(f'{pv("assert")} {self.val(c)}')
        elif e[1] == 'debug_assert':
            global LEAK
            was, LEAK = LEAK, False
            c = self.ex(p.expr(), 'bool')
            LEAK = was
            code = f'do pure {self.val(c)}'
            self.monadic = True
            self.lines.append(quiet(f'Aes.Profile.debugAssert Cfg.profile ({code})'))
        else:
            self.refuse(f'macro {e[1]}!')

    def root(self, e):
        while e[0] in ('index', 'field', 'deref', 'ref', 'method'):
            e = e[2] if e[0] == 'ref' else e[1]
        return e[1][0] if e[0] == 'path' and len(e[1]) == 1 else None

    def assign(self, lhs, rhs):
        if lhs[0] == 'deref':
            return self.assign(lhs[1], rhs)
        if lhs[0] == 'path' and len(lhs[1]) == 1:
            x = lhs[1][0]
            v = self.want(self.ex(rhs, self.env[x]), self.env[x])
            self.let(x, v)
        elif lhs[0] == 'index' and lhs[1][0] == 'path':
            x = lhs[1][1][0]
            t = find(self.env[x])
            i = self.want(self.ex(lhs[2], 'usize'), 'usize')
            ic = self.val(i)
            v = self.want(self.ex(rhs, t[1]), t[1])
            op = {'slice': 'supd', 'arr': 'upd', 'view': 'upd'}[t[0]]
            tag = ' .data' if LEAK and op == 'upd' else ''
            self.let(x, E(f'{pv(op)}{tag} {x} {ic} {self.val(v)}', t, act=True))
        elif lhs[0] == 'field' and lhs[1][0] == 'path':
            x = lhs[1][1][0]
            t = full(self.env[x])
            if t[0] == 'tuple':
                v = self.want(self.ex(rhs, t[1][lhs[2]]), t[1][lhs[2]])
                parts = [proj(x, j, len(t[1])) for j in range(len(t[1]))]
                parts[lhs[2]] = self.val(v)
                self.let(x, E('(' + ', '.join(parts) + ')', t))
            else:
                fs = self.mod.adts[t[1]].fields
                v = self.want(self.ex(rhs, fs[lhs[2]][1]), fs[lhs[2]][1])
                parts = [f'{x}.{n}' for n, _ in fs]
                parts[lhs[2]] = self.val(v)
                self.let(x, E('⟨' + ', '.join(parts) + '⟩', t), self.mod.lean(t))
        else:
            self.refuse('assignment target')

    def assigned(self, stmts, acc):
        for s in stmts:
            if s[0] == 'assign':
                acc.append(self.root(s[1]))
            elif s[0] == 'expr' and s[1][0] == 'block':
                self.assigned(s[1][1], acc)
            elif s[0] == 'expr':
                self.refuse('call in a loop')
        return acc

    def for_(self, s):
        _, p, it, blk = s
        if blk[2] is not None:
            self.refuse('loop value')
        vs = []
        for x in self.assigned(blk[1], []):
            if x in self.env and x not in vs:
                vs.append(x)
        code, elt = self.iter(it)
        saved, env = self.lines, dict(self.env)
        self.lines, outer_m = [], self.monadic
        self.monadic = LEAK
        x = self.pat(p, elt)
        for st in blk[1]:
            self.stmt(st)
        st = vs[0] if len(vs) == 1 else '(' + ', '.join(vs) + ')'
        self.lines.append(('RESULT', E(st, None)))
        body = self.render(self.lines)
        m = self.monadic
        self.monadic = outer_m or m
        self.lines, self.env = saved, env
        fold = 'foldlM' if m else 'foldl'
        ind = '\n'.join('    ' + l for l in body)
        e = E(f'{par(code)}.{fold} (fun {st} {x} => {"do" if m else ""}\n{ind}) {st}', None, act=m)
        if LEAK:
            e = E(f'{K}forEach {par(code)} (fun {st} {x} => do\n{ind}) {st}', None, act=True)
        self.let(st, e)

    def iter(self, it):
        """(Lean list, element type) of the iterated expression."""
        if it[0] == 'method' and it[2] == 'enumerate':
            c, t = self.iter(it[1])
            return f'enumerate {par(c)}', ('tuple', ('usize', t))
        if it[0] == 'method' and it[2] == 'chunks_exact':
            a = self.ex(it[1], None)
            t = find(a.ty)
            k = self.ex(it[4][0], 'usize')
            return f'chunksExact {self.val(k)} {self.val(self.want(a, ("slice", t[1])))}', ('slice', t[1])
        if it[0] == 'range' or (it[0] == 'method' and it[2] == 'step_by'):
            r, step = (it, '1') if it[0] == 'range' else (it[1], self.val(self.ex(it[4][0], 'usize')))
            a = self.want(self.ex(r[1], 'usize'), 'usize')
            b = self.want(self.ex(r[2], 'usize'), 'usize')
            return f'rangeStep {self.val(a)} {self.val(b)} {step}', 'usize'
        a = self.ex(it, None)
        t = find(a.ty)
        if not (isinstance(t, tuple) and t[0] in ('slice', 'arr')):
            self.refuse(f'iterate over {t}')
        return self.val(self.want(a, ('slice', t[1]))), t[1]

    # -- calls with mutable arguments
    def callee(self, e):
        """(Sig, argument expressions, self type substitution) for a call or method call, or None."""
        if e[0] == 'call' and e[1][0] == 'path':
            segs = e[1][1]
            if len(segs) == 1:
                n = segs[0]
                t = self.env.get(n)
                key = t[1] if isinstance(t, tuple) and t[0] == 'localfn' else n
                s = self.mod.sig(key)
                if s:
                    return s, e[2], e[1][2]
            elif len(segs) == 2:
                t = self.self_ty if segs[0] == 'Self' else ('adt', segs[0]) if segs[0] in self.mod.adts else None
                if t and isinstance(t, tuple) and t[0] == 'adt':
                    s = self.mod.method(t[1], segs[1])
                    if s:
                        return s, e[2], e[1][2]
        if e[0] == 'method':
            if e[2] in ('into', 'unwrap', 'try_into', 'len', 'as_ptr', 'as_mut_ptr', 'cast', 'add', 'map',
                        'copy_from_slice', 'fill', 'write_unaligned', 'rotate_right', 'wrapping_sub') or e[2].endswith('_bytes'):
                return None
            t = find(self.ex_type(e[1]))
            if isinstance(t, tuple) and t[0] == 'adt':
                s = self.mod.method(t[1], e[2])
                if s:
                    return s, [e[1]] + e[4], e[3]
        return None

    def ex_type(self, e):
        """Type of an expression, without emitting anything."""
        saved = (list(self.fresh_log), self.monadic, list(self.lines), dict(self.env), dict(self.viewof), dict(self.ptrs))
        n = len(self.fresh_log)
        t = self.ex(e, None).ty
        del self.fresh_log[n:]
        self.monadic, self.lines = saved[1], saved[2]
        self.env, self.viewof, self.ptrs = saved[3], saved[4], saved[5]
        return t

    def out_call(self, e, p):
        """A call that updates places: emits it (binding p to its result) and returns True."""
        if e[0] == 'block' and not e[1] and e[2] is not None:
            return self.out_call(e[2], p)
        # dst[..k].copy_from_slice(src), dst[k..].fill(v), ptr.write_unaligned(v)
        if e[0] == 'method' and e[2] in ('copy_from_slice', 'fill'):
            x, wrap, elt = self.place(e[1])
            a, lines = self.sub(lambda: self.want(self.ex(e[4][0], ('slice', elt) if e[2] == 'copy_from_slice' else elt),
                                                  ('slice', elt) if e[2] == 'copy_from_slice' else elt))
            fn = pv('copyFromSlice') if e[2] == 'copy_from_slice' else 'fill'
            self.monadic = True
            self.let(x, E(wrap(lambda s: f'do {fn} {s} {a}') if wrap else f'{fn} {x} {a}', None, act=True))
            return True
        if e[0] == 'method' and e[2] == 'write_unaligned':
            ptr = self.ex(e[1], None)
            if ptr.k.get('off') is not None:
                self.refuse('offset write')
            v = self.ex(e[4][0], ptr.ty[1])
            v = self.want(v, ptr.ty[1])
            x = ptr.k['base']
            self.let(x, E(f'{pv("rawWrite")} {ptr.k["list"]} (Layout.bytes {self.val(v)})', None, act=True))
            return True
        c = self.callee(e)
        if not c or not c[0].outs:
            return False
        sig, args, gen = c
        consts, ptys, ret, targs = self.instantiate(sig, gen)
        places, codes, wrap1 = [], [], None
        for i, (a, t) in enumerate(zip(args, ptys)):
            if i in sig.outs:
                if isinstance(find(t), tuple) and find(t)[0] == 'ptr':
                    q = self.ex(a, None)
                    if q.k.get('off') is not None:
                        self.refuse('offset store')
                    places.append(q.k['base'])
                    codes.append(q.k['list'])
                    continue
                x, wrap, elt = self.place(a, t)
                places.append(x)
                if wrap is None:
                    codes.append(x)
                    if not unify(self.env[x], t):
                        self.refuse('type of a mutable argument')
                else:
                    if len(sig.outs) > 1:
                        self.refuse('several mutable arguments')
                    wrap1 = wrap
                    codes.append(None)
            else:
                codes.append(('arg', self.want(self.ex(a, t), t)))
        lean = lambda s: ' '.join([sig.lean] + [self.cst(cc) for cc in consts] + targs
                                  + [(s if q is None else self.val(q[1]) if isinstance(q, tuple) else par(q)) for q in codes])
        if wrap1:
            if sig.pure:
                self.refuse('pure update of a slice')
            if p is not None or ret != 'unit':
                self.refuse('result of an update of a slice')
            self.let(places[0], E(wrap1(lambda s: lean(s)), None, act=True))
            return True
        lhs = places[0] if len(places) == 1 else '(' + ', '.join(places) + ')'
        if full(ret) != 'unit':
            if p is None:
                self.refuse('result dropped')
            t = self.patty(p)
            if not unify(t, ret):
                self.refuse('pattern type')
            lhs = '(' + ', '.join(places + [self.pat(p, t)]) + ')'
        self.let(lhs, E(lean(None), None, act=not sig.pure))
        return True

    def sub(self, f):
        """Code of an expression inside its own `do`."""
        e = f()
        return self.val(e), None

    def place(self, a, want=None):
        """(variable, None or wrapper for a part of it, element type) of a mutable place."""
        if a[0] == 'ref':
            a = a[2]
        if a[0] == 'path' and len(a[1]) == 1:
            x = a[1][0]
            t = find(self.env[x])
            if isinstance(t, tuple) and t[0] == 'arr' and (want is None or find(want)[0] == 'slice'):
                return x, (lambda f: f'withSlice {x} (fun s => {f("s")})'), t[1]
            return x, None, t[1] if isinstance(t, tuple) and len(t) > 1 else None
        if a[0] == 'index' and a[2][0] == 'range' and a[1][0] == 'path':
            x = a[1][1][0]
            t = find(self.env[x])
            lo, hi = a[2][1], a[2][2]
            if (lo is None) == (hi is None):
                self.refuse('mutable range')
            k = self.val(self.want(self.ex(lo or hi, 'usize'), 'usize'))
            op = pv('onFrom' if lo else 'onTo')
            if t[0] == 'slice':
                return x, (lambda f: f'{op} {x} {k} (fun s => {f("s")})'), t[1]
            return x, (lambda f: f'withSlice {x} (fun a => {op} a {k} (fun s => {f("s")}))'), t[1]
        self.refuse('mutable place')

    def cst(self, c):
        c = full(c)
        return str(c) if not isinstance(c, tuple) else par(c[1])

    def instantiate(self, sig, gen):
        """Constants (as Lean), parameter types, result type, extra Lean arguments."""
        m, consts = {}, []
        for i, (n, t) in enumerate(sig.consts):
            if i < len(gen):
                g = gen[i]
                if g[0] == 'int':
                    c = ('lit', self.lit(g[1], t))
                else:
                    c = ('lit', g[1])
                    if g[1] not in self.env:
                        self.refuse(f'const argument {g}')
            else:
                c = self.fresh()
            m[n] = c
            consts.append(c)
        for n, src in sig.types:
            m[n] = self.fresh()

        def sub(t):
            t = find(t)
            if isinstance(t, tuple):
                if t[0] == 'tyvar':
                    return m[t[1]]
                if t[0] == 'arr' and isinstance(t[2], str) and t[2] in m:
                    return ('arr', sub(t[1]), m[t[2]])
                return tuple(sub(x) for x in t)
            return t
        targs = []
        for n, src in sig.types:
            targs.append(('from', sub(src), m[n]))
        ptys, ret = [sub(t) for t in sig.params], sub(sig.ret)
        return consts, ptys, ret, targs

    def lit(self, v, t):
        t = full(t)
        if t in BITS:
            if v >= 1 << BITS[t]:
                self.refuse(f'literal {v} too large')
            return f'{hex(v) if v > 9 else v}#{BITS[t]}'
        if t == 'usize':
            return str(v)
        if isinstance(t, TVar):
            return '?'
        self.refuse(f'literal of type {t}')

    def call(self, sig, args, gen, want):
        if sig.outs:
            self.refuse(f'call of {sig.lean} inside an expression')
        consts, ptys, ret, targs = self.instantiate(sig, gen)
        if want is not None and unifiable(ret, want):
            unify(ret, want)
        if len(args) != len(ptys):
            self.refuse(f'arguments of {sig.lean}')
        extra = []
        for _, src, dst in targs:
            c = find_from(self.mod, src, dst)
            if len(c) == 1:
                unify(src, c[0][0])
                unify(dst, c[0][1])
                fn = self.mod.from_fn(c[0])
                extra.append(fn.lean if not fn.pure else f'(fun v => pure ({fn.lean} v))')
            else:
                extra.append('?')
        codes = []
        if sig.value and args and all(a[0] == 'int' for a in args):     # a constant
            sig = Sig(sig.value, sig.params, sig.ret, True, (), sig.consts, sig.types)
        for a, t in zip(args, ptys):
            if isinstance(find(t), tuple) and find(t)[0] == 'ptr':
                q = self.ex(a, None)
                if q.k.get('off') is not None:
                    self.refuse('offset load')
                codes.append(par(q.k['list']))
            else:
                codes.append(self.val(self.want(self.ex(a, t), t)))
        return E(' '.join([sig.lean] + [self.cst(c) for c in consts] + extra + codes), ret, act=not sig.pure)

    # -- expressions
    def ex(self, e, want):
        k = e[0]
        if k == 'int':
            t = e[2] or (want if want is not None else self.fresh())
            return E(self.lit(e[1], t), t, int=True)
        if k == 'path':
            segs = e[1]
            if len(segs) == 1:
                x = segs[0]
                if x in self.env:
                    if x in self.ptrs:
                        return self.ptrs[x]
                    t = self.env[x]
                    if x in self.viewof:     # the memory is also known under another name: read it back
                        v = self.viewof.pop(x)
                        self.lines.append(f'let {x} : {self.mod.lean(t)} := castBack {x} {v}')
                    return E(x, t)
                if x in self.mod.consts:
                    return E(f'RustSrc.{self.mod.vns}.{x}' if LEAK else x, self.mod.consts[x])
                if x in self.mod.lazy:
                    c = self.call(self.mod.sig(x), [], [], None)
                    return E(f'({c.code} : M ({self.mod.lean(c.ty)}))', c.ty, act=True) if solved(c.ty) else c
            self.refuse(f'name {"::".join(segs)}')
        if k == 'block':
            if e[1]:
                self.refuse('statements in a nested block')
            return self.ex(e[2], want)
        if k == 'ref':
            return self.ex(e[2], want)
        if k == 'deref':
            q = self.ex(e[1], None)
            if isinstance(find(q.ty), tuple) and find(q.ty)[0] == 'ptr':
                t = want if want is not None else self.fresh()
                u = find(t)
                if not unify(t, ('arr', 'u8', self.fresh())):
                    self.refuse('raw read')
                n = find(full(t)[2])
                return E(f'{pv("rawRead")} {q.k["list"]} {q.k.get("off") or "0"} {n}', t, act=True)
            return q
        if k == 'tuple':
            w = find(want) if want is not None else None
            ws = w[1] if isinstance(w, tuple) and w[0] == 'tuple' and len(w[1]) == len(e[1]) else [None] * len(e[1])
            es = [self.ex(x, y) for x, y in zip(e[1], ws)]
            es = [self.want(x, y) for x, y in zip(es, ws)]
            return E('(' + ', '.join(self.val(x) for x in es) + ')', ('tuple', tuple(x.ty for x in es)))
        if k == 'array':
            t = self.fresh()
            w = find(want) if want is not None else None
            if isinstance(w, tuple) and w[0] == 'arr':
                unify(t, w[1])
            es = [self.val(self.want(self.ex(x, t), t)) for x in e[1]]
            return E('#v[' + ', '.join(es) + ']', ('arr', t, len(es)))
        if k == 'repeat':
            t = self.fresh()
            w = find(want) if want is not None else None
            if isinstance(w, tuple) and w[0] == 'arr':
                unify(t, w[1])
            v = self.want(self.ex(e[1], t), t)
            return E(f'Vector.replicate {e[2]} {self.val(v)}', ('arr', t, e[2]))
        if k == 'field':
            a = self.ex(e[1], None)
            t = full(a.ty)
            if isinstance(t, tuple) and t[0] == 'tuple':
                return E(proj(self.val(a), e[2], len(t[1])), t[1][e[2]])
            if isinstance(t, tuple) and t[0] == 'adt':
                fs = self.mod.adts[t[1]].fields
                if fs is None:
                    self.refuse('private field')
                for key, (n, ft) in fs.items() if isinstance(fs, dict) else enumerate(fs):
                    if key == e[2]:
                        return E(f'{self.val(a)}.{n}', ft)
            if isinstance(t, TVar):
                return E('?', self.fresh())
            self.refuse(f'field {e[2]} of {t}')
        if k == 'index':
            return self.index(e, want)
        if k == 'cast':
            return self.castx(e)
        if k == 'unary':
            if e[1] == '-' and e[2][0] == 'int':
                t = want if want is not None else self.fresh()
                return E(f'(-{self.lit(e[2][1], t)})', t)
            if e[1] == '!':
                a = self.ex(e[2], want)
                t = full(a.ty)
                if t in BITS:
                    if LEAK:
                        return E(f'{K}not {self.val(a)}', t, act=True)
                    return E(f'~~~{self.val(a)}', t)
                if isinstance(t, tuple) and t[0] == 'adt':
                    return self.call(self.mod.method(t[1], 'not'), [e[2]], [], want)
            self.refuse(f'unary {e[1]}')
        if k == 'bin':
            return self.binop(e, want)
        if k == 'call':
            return self.callx(e, want)
        if k == 'method':
            return self.methodx(e, want)
        if k == 'struct':
            t = ('adt', e[1])
            fs = self.mod.adts[e[1]].fields
            args = ', '.join(f'{fs[n][0]} := {strip(self.val(self.want(self.ex(x, fs[n][1]), fs[n][1])))}' for n, x in e[2])
            return E(f'{{ {args} : {self.mod.lean(t)} }}', t)
        if k == 'if':
            c = e[1]
            if c[0] == 'macro' and c[1] == 'cfg':
                cond = cfg_lean(P(c[2], {}).cfg())
                a, b = self.ex(e[2], want), self.ex(e[3], want)
                if a.act or b.act:
                    self.refuse('effects under if')
                return E(f'if {cond} then {a.code} else {b.code}', a.ty)
        self.refuse(f'expression {k}')

    def index(self, e, want):
        a = self.ex(e[1], None)
        t = find(a.ty)
        if isinstance(t, TVar):
            return E('?', self.fresh())
        if e[2][0] == 'range':
            lo, hi = e[2][1], e[2][2]
            elt = ('slice', t[1])
            c = self.val(self.want(a, elt))
            if hi is not None:
                k = self.val(self.want(self.ex(hi, 'usize'), 'usize'))
                c = f'{pv("sliceTo")} {c} {k}'
            if lo is not None:
                k = self.val(self.want(self.ex(lo, 'usize'), 'usize'))
                if hi is not None:
                    self.monadic = True
                    c = f'(← {c})'
                c = f'{pv("sliceFrom")} {c} {k}'
            return E(c, elt, act=True)
        if t[0] == 'arr' and e[2][0] == 'int' and isinstance(full(t)[2], int):
            if e[2][1] >= full(t)[2]:
                self.refuse('constant index out of range')      # rustc rejects this too
            if LEAK:
                return E(f'{K}idx {self.arr(e[1])} {self.val(a)} {e[2][1]}', t[1], act=True)
            return E(f'{self.val(a)}[{e[2][1]}]', t[1])
        if t[0] == 'arr' and e[2][0] == 'cast' and e[2][2] == ('path', 'usize', ()) and full(t)[2] == 256:
            i = self.ex(e[2][1], None)
            if full(i.ty) == 'u8':      # a u8 index into 256 elements cannot be out of range
                if LEAK:
                    return E(f'lookup {self.arr(e[1])} {self.val(a)} {self.val(i)}', t[1], act=True)
                return E(f'{self.val(a)}[{self.val(i)}.toNat]\'(BitVec.isLt _)', t[1])
        i = self.want(self.ex(e[2], 'usize'), 'usize')
        op = 'sidx' if t[0] == 'slice' else 'idx'
        tag = f' {self.arr(e[1])}' if LEAK and op == 'idx' else ''
        return E(f'{pv(op)}{tag} {self.val(a)} {self.val(i)}', t[1], act=True)

    def arr(self, e):
        """The name under which an indexed array appears in a trace."""
        n = e[1][0] if e[0] == 'path' and len(e[1]) == 1 and e[1][0] in self.mod.consts and e[1][0] not in self.env else None
        return f'.{n}' if n in ARRS else '.data'

    def castx(self, e):
        to = self.mod.ty(e[2])
        a = self.ex(e[1], None)
        t = full(a.ty)
        if isinstance(t, TVar):
            return E('?', to)
        if t in BITS and t[0] == 'u' and to in BITS and to[0] == 'u':
            if LEAK:
                return E(f'{K}cast {BITS[to]} {self.val(a)}', to, act=True)
            return E(f'{self.val(a)}.setWidth {BITS[to]}', to)
        if t in BITS and t[0] == 'u' and to == 'usize' and BITS[t] <= 16:
            return E(f'{self.val(a)}.toNat', to)
        self.refuse(f'cast {t} as {to}')

    def binop(self, e, want):
        _, op, x, y = e
        if op in ('<<', '>>'):
            a = self.ex(x, want)
            t = full(a.ty)
            if y[0] != 'int':
                self.refuse('shift amount')
            if t in BITS and y[1] >= BITS[t]:
                self.refuse('shift amount')      # rustc rejects this too
            if LEAK:
                return E(f'{K}{LOP[op]} {self.val(a)} {y[1]}', a.ty, act=True)
            return E(f'{self.val(a)} {op}{op[0]} {y[1]}', a.ty)
        cmp = op in ('==', '!=', '>=', '<=', '<', '>')
        lit_first = x[0] == 'int'
        if lit_first:
            b = self.ex(y, None if cmp else want)
            a = self.ex(x, b.ty)
        else:
            a = self.ex(x, None if cmp else want)
            b = self.ex(y, a.ty)
        if not unify(a.ty, b.ty):
            self.refuse(f'operands of {op}: {full(a.ty)} {full(b.ty)}')
        t = full(a.ty)
        if isinstance(t, TVar):
            return E('?', 'bool' if cmp else t)
        if op in LEANOP:
            if t in BITS:
                if LEAK:
                    return E(f'{K}{LOP[op]} {self.val(a)} {self.val(b)}', t, act=True)
                return E(f'{self.val(a)} {LEANOP[op]} {self.val(b)}', t)
            if t == 'bool' and op == '&':
                if LEAK:
                    return E(f'{K}emit .and ({self.val(a)} && {self.val(b)})', t, act=True)
                return E(f'and {self.val(a)} {self.val(b)}', t)
            if isinstance(t, tuple) and t[0] == 'adt':
                s = self.mod.method(t[1], OPTRAIT[op])
                return E(f'{s.lean} {self.val(a)} {self.val(b)}', t, act=not s.pure)
        if op in ('+', '-') and t == 'usize':
            return E(quiet(f'{"Aes.Profile.uadd" if op == "+" else "Aes.Profile.usub"} Cfg.profile {self.val(a)} {self.val(b)}'),
                     t, act=True)
        if op == '/' and t == 'usize' and y[0] == 'int' and y[1] > 0:
            return E(f'{self.val(a)} / {self.val(b)}', t)
        if LEAK and op == '==' and t in BITS:
            return E(f'{K}eqw {self.val(a)} {self.val(b)}', 'bool', act=True)
        if op in ('==', '!=') and (t in BITS and not LEAK or t == 'usize'):
            return E(f'{self.val(a)} {op} {self.val(b)}', 'bool')
        if op == '==' and isinstance(t, tuple) and t[0] == 'adt' and not LEAK:
            s = self.mod.method(t[1], 'eq')
            return E(f'{s.lean} {self.val(a)} {self.val(b)}', 'bool', act=not s.pure)
        if op == '==' and isinstance(t, tuple) and t[0] == 'arr' and t[1] == 'u8' and not LEAK:
            return E(f'{self.val(a)} == {self.val(b)}', 'bool')
        if op in ('>=', '<=') and t == 'usize':
            return E(f'decide ({self.val(a)} {"≥" if op == ">=" else "≤"} {self.val(b)})', 'bool')
        self.refuse(f'operator {op} on {t}')

    def callx(self, e, want):
        f, args = e[1], e[2]
        if f[0] == 'path':
            segs = f[1]
            # tuple-struct constructors
            n = segs[0]
            t = self.self_ty if n == 'Self' else ('adt', n) if n in self.mod.adts else None
            if len(segs) == 1 and t is not None:
                fs = self.mod.adts[t[1]].fields
                if len(fs) != len(args):
                    self.refuse('constructor')
                cs = [strip(self.val(self.want(self.ex(a, ft), ft))) for a, (_, ft) in zip(args, fs)]
                return E('(⟨' + ', '.join(cs) + f'⟩ : {self.mod.lean(t)})', t)
            if segs in (['Ok'], ['Err']):
                w = find(want)
                if not (isinstance(w, tuple) and w[0] == 'res'):
                    self.refuse('Ok/Err')
                i = 1 if n == 'Ok' else 2
                v = self.want(self.ex(args[0], w[i]), w[i])
                return E(f'Except.{"ok" if n == "Ok" else "error"} {self.val(v)}', w)
            if segs == ['mem', 'zeroed'] and not args:
                return E('zeroed', want)
            if segs[-1] == 'transmute' and segs[-2] == 'mem':
                a = self.ex(args[0], None)
                if LEAK:
                    return E(f'{K}emit .move (transmute {self.val(a)})', want, act=True)
                return E(f'transmute {self.val(a)}', want)
            if segs == ['slice', 'from_raw_parts_mut']:
                q = self.ex(args[0], None)
                if q.k.get('off') is not None or args[1][0] != 'int':
                    self.refuse('from_raw_parts_mut')
                elt = find(q.ty)[1]
                if elt is None:
                    elt = self.fresh()
                return E(quiet(f'castView {q.k["base"]} {args[1][1]}'), ('view', elt, args[1][1]), act=True, base=q.k['base'])
            if len(segs) == 2 and segs[0] in BITS and segs[1] in ('from_ne_bytes', 'from_be_bytes', 'from_le_bytes'):
                t = segs[0]
                at = ('arr', 'u8', BITS[t] // 8)
                a = self.want(self.ex(args[0], at), at)
                fn = {'ne': 'fromNe Cfg.endian', 'be': 'fromBe', 'le': 'fromLe'}[segs[1][5:7]]
                if LEAK:
                    return E(f'{K}emit .move ({fn} {BITS[t]} {self.val(a)})', t, act=True)
                return E(f'{fn} {BITS[t]} {self.val(a)}', t)
            if len(segs) == 2 and segs[1] == 'from' and t is not None:
                return self.conv(self.ex(args[0], None), t)
        if f[0] == 'qself' and f[2] == 'from_hex' and args[0][0] == 'str':
            t = self.mod.ty(f[1])
            if t[0] != 'arr' or t[1] != 'u8':
                self.refuse('from_hex')
            return E(f'from_hex {t[2]} {chars(args[0][1])}', ('res', t, 'usize'))
        c = self.callee(e)
        if c:
            return self.call(c[0], c[1], c[2], want)
        self.refuse(f'call {f}')

    def conv(self, a, dst):
        """`.into()` and `T::from`: the From impl for the two types."""
        c = [f for f in find_from(self.mod, a.ty, dst) if not a.k.get('int') or find(f[0]) in BITS]
        if len(c) != 1:
            if solved(a.ty) and solved(dst):
                self.refuse(f'no unique From<{full(a.ty)}> for {full(dst)}')
            return E('?', dst)
        unify(a.ty, c[0][0])
        unify(dst, c[0][1])
        s = self.mod.from_fn(c[0])
        if self.mod.file == 'tests.rs' and s.pure:     # the elaborator does not find the type
            return E(f'({s.lean} {self.val(a)} : {self.mod.lean(dst)})', dst)
        return E(f'{s.lean} {self.val(a)}', dst, act=not s.pure)

    def methodx(self, e, want):
        _, r, m, gen, args = e
        if m == 'into':
            a = self.ex(r, None)
            return self.conv(a, want if want is not None else self.fresh())
        if m == 'unwrap':
            if r[0] == 'method' and r[2] == 'try_into':
                a = self.ex(r[1], None)
                t = find(a.ty)
                n = self.fresh()
                ty = ('arr', t[1], n)
                if want is not None and not unify(ty, want):
                    self.refuse('try_into')
                return E(f'{pv("arrayTryFrom")} {full(n)} {self.val(self.want(a, ("slice", t[1])))}', ty, act=True)
            a = self.ex(r, None)
            t = find(a.ty)
            if isinstance(t, TVar):
                return E('?', self.fresh())
            if t[0] != 'res':
                self.refuse('unwrap')
            return E(f'{pv("unwrap")} {self.val(a)}', t[1], act=True)
        if m == 'len':
            a = self.ex(r, None)
            t = full(a.ty)
            if t[0] != 'slice':
                self.refuse('len')
            return E(f'{self.val(a)}.length', 'usize')
        if m in ('as_ptr', 'as_mut_ptr'):
            if r[0] != 'path' or len(r[1]) != 1:
                self.refuse('pointer to an expression')
            x = r[1][0]
            t = find(self.env[x])
            lst = f'{x}.toList' if t[0] == 'arr' else x
            return E('', ('ptr', t[1]), base=x, list=lst)
        if m == 'cast':
            q = self.ex(r, None)
            t = self.mod.ty(gen[0], self.self_ty) if gen else None
            return E('', ('ptr', t), **q.k)
        if m == 'add':
            q = self.ex(r, None)
            if q.ty[1] != 'u8' or q.k.get('off') is not None:
                self.refuse('pointer arithmetic')
            o = self.val(self.want(self.ex(args[0], 'usize'), 'usize'))
            return E('', q.ty, **dict(q.k, off=o))
        if m == 'rotate_right':
            a = self.ex(r, want)
            if args[0][0] != 'int':
                self.refuse('rotation')
            if LEAK:
                return E(f'{K}rotr {self.val(a)} {args[0][1]}', a.ty, act=True)
            return E(f'{self.val(a)}.rotateRight {args[0][1]}', a.ty)
        if m == 'wrapping_sub':
            a = self.ex(r, want)
            b = self.want(self.ex(args[0], a.ty), a.ty)
            if LEAK:
                return E(f'{K}sub {self.val(a)} {self.val(b)}', a.ty, act=True)
            return E(f'{self.val(a)} - {self.val(b)}', a.ty)
        if m in ('to_ne_bytes', 'to_be_bytes', 'to_le_bytes'):
            a = self.ex(r, None)
            t = full(a.ty)
            n = BITS[t] // 8
            fn = {'ne': 'toNe Cfg.endian', 'be': 'toBe', 'le': 'toLe'}[m[3:5]]
            if LEAK:
                return E(f'{K}emit .move ({fn} {n} {self.val(a)})', ('arr', 'u8', n), act=True)
            return E(f'{fn} {n} {self.val(a)}', ('arr', 'u8', n))
        if m == 'map' and args == [('path', ['Into', 'into'], [])]:
            a = self.ex(r, None)
            t = find(a.ty)
            elt = self.fresh()
            c = find_from(self.mod, t[1], elt)
            ty = ('arr', elt, t[2])
            if len(c) != 1:
                return E('?', ty)
            s = self.mod.from_fn(c[0])
            if not s.pure:
                self.refuse('map with effects')
            return E(f'Vector.map {s.lean} {self.val(a)}', ty)
        c = self.callee(e)
        if c:
            return self.call(c[0], c[1], c[2], want)
        t = full(self.ex_type(r))
        if isinstance(t, TVar):
            return E('?', self.fresh())
        self.refuse(f'method {m} on {t}')


def strip(c):
    return c[1:-1] if c.startswith('(') and balanced(c) and not c.startswith('(←') and not c.startswith('(⟨') \
        and ', ' not in c else c


def proj(x, j, n):
    return f'{par(x)}' + '.2' * j + ('.1' if j < n - 1 else '')


def pnames(p):
    return [p[1]] if p[0] == 'pvar' else [x for q in p[1] for x in pnames(q)]


def cfg_lean(c):
    """The two cfgs that occur inside functions."""
    if c == ('is', 'target_endian', 'big'):
        return 'Cfg.endian = .big'
    if c == ('is', 'target_arch', 'arm'):
        return 'Cfg.is32 = true'
    raise Refuse(f'cfg {c}')


def _body(self, blk, _orig=FnTr.body):
    return self.render(_orig(self, blk))


FnTr.body = _body


def method(self, adt, name):
    for key in ((adt, name),):
        s = self.sig(key)
        if s:
            return s
    return self.adts[adt].m.get(name)


def from_fn(self, entry):
    f = entry[2]
    return f if isinstance(f, Sig) else self.sig(f)


Module.method, Module.from_fn = method, from_fn
INTRINS = {}
_m0 = Module('core::arch', 'Arch')
_p = P(tokenize(INTRIN), {})
while _p.i < len(_p.ts):
    _f = _p.fn()
    _ps = [_m0.ty(t) for _, t in _f['params']]
    _ptr = [i for i, (_, t) in enumerate(_f['params']) if t[0] == 'ptr']
    _st = _f['ret'] == ('tuple', ())
    INTRINS[_f['name']] = Sig(_f['name'], _ps, _m0.ty(_f['ret']), not _ptr, _ptr if _st else [],
                              [(n, _m0.ty(t)) for n, t in _f['consts']])


# ---------------------------------------------------------------------------------------------- driver

FMT = ('Debug', 'Display', 'Binary', 'LowerHex', 'UpperHex')
SKIP = ('Eq', 'private::Sealed') + FMT
NAMES = {'BitAnd': 'bitand', 'BitOr': 'bitor', 'BitXor': 'bitxor', 'Not': 'not', 'PartialEq': 'eq', 'Default': 'default_',
         'TryFrom': 'try_from', 'BitAndAssign': 'bitand_assign', 'BitOrAssign': 'bitor_assign',
         'BitXorAssign': 'bitxor_assign'}
B, X2, X4 = ('adt', 'AesBlock'), ('adt', 'AesBlockX2'), ('adt', 'AesBlockX4')


def tup(*ts):
    return ('tuple', ts)


def from_name(src, dst, ref):
    """The name of a From impl, by its types."""
    if ref:
        return 'from_ref'
    if isinstance(src, tuple) and src[0] == 'arr' and src[1] == 'u8':
        return 'from_bytes' if dst in (B, X2, X4) else 'from'
    if isinstance(dst, tuple) and dst[0] == 'arr' and dst[1] == 'u8':
        return 'into_bytes'
    return {('u128', B): 'from_u128', (B, 'u128'): 'into_u128', (tup(B, B), X2): 'from_pair', (X2, tup(B, B)): 'to_pair',
            (B, X2): 'from_block', (B, X4): 'from_block', (tup(B, B, B, B), X4): 'from_quad',
            (X4, tup(B, B, B, B)): 'to_quad', (tup(X2, X2), X4): 'from_x2_pair', (X4, tup(X2, X2)): 'to_x2_pair',
            (X2, X4): 'from_x2'}[(src, dst)]


# conversions between the block types: moves of whole blocks, no events in leakage mode
MOVES = [(tup(B, B), X2), (X2, tup(B, B)), (B, X2), (B, X4), (tup(B, B, B, B), X4), (X4, tup(B, B, B, B)), (tup(X2, X2), X4),
         (X4, tup(X2, X2)), (X2, X4)]


def no_control(mod, e):
    """Refuse anything but expressions without branches, indexing and loops."""
    if isinstance(e, (tuple, list)):
        if e and e[0] in ('if', 'index', 'for', 'macro', 'match'):
            raise Refuse(f'{mod.file}: {e[0]} in a conversion between block types')
        for x in e:
            no_control(mod, x)


def register_impl(mod, it, prefix):
    """Register the functions of an impl; prefix: Lean names are `<type>.<method>`."""
    trait, self_ty = it['trait'], mod.ty(it['ty'])
    tn = trait[1] if trait else None
    if tn in SKIP:
        return []
    keys = []
    if tn == 'From' or tn in NAMES:  # rustc refuses any other method, and demands this one
        want = {'From': 'from', 'Default': 'default'}.get(tn) or NAMES[tn]
        got = [f['name'] for f in it['fns']]
        if got != [want]:
            raise Refuse(f'{mod.file}: impl {tn} with {got}')
    for f in it['fns']:
        f.setdefault('file', it.get('file', mod.file))
        f['via'] = it.get('via', [])
        own = self_ty[1] if isinstance(self_ty, tuple) and self_ty[0] == 'adt' else None
        if tn == 'From':
            src = mod.ty(trait[2][0], self_ty)
            ref = trait[2][0][0] == 'ref'
            n = from_name(src, self_ty, ref)
            own = own or (src[1] if isinstance(src, tuple) and src[0] == 'adt' else None)
            key = ('from', src, self_ty, ref)
            if LEAK and (src, self_ty) in MOVES:
                no_control(mod, f['body'])
                mod.froms.append((src, self_ty, Sig(f'RustSrc.{mod.vns}.{n}', [src], self_ty, True)))
                continue
            if not ref:
                mod.froms.append((src, self_ty, key))
            if own and own not in ('AesBlock', 'AesBlockX2', 'AesBlockX4'):
                mod.add_fn(f, f'{own}.{n}', self_ty, it['assoc'], key)
                keys.append(key)
                continue
        elif tn is None or tn in ('AesEncrypt', 'AesDecrypt'):
            n = f['name']
            key = (own, n)
        elif tn in NAMES:
            n = NAMES[tn]
            key = (own, n)
        else:
            raise Refuse(f'{mod.file}: impl {tn}')
        mod.add_fn(f, f'{own}.{n}' if prefix else n, self_ty, it['assoc'], key)
        keys.append(key)
    return keys


def abstract(mod, lib=False, block='B'):
    """Declare the types a module imports from the rest of the crate through the classes of Verif/Model/Api.lean."""
    def vec(name, lean, size):
        a = Adt(lean, None, abstract=True)
        t = ('adt', name)
        cl = 'Aes.Leak.LVec.' if LEAK else 'Aes.AesVec.'
        a.m['new'] = Sig(cl + 'new', [('arr', 'u8', size)], t, False)
        a.m['store_to'] = Sig(cl + 'store_to', [t, ('slice', 'u8')], 'unit', False, outs=[1])
        a.m['zero'] = Sig(cl + 'zero', [], t, not LEAK)
        a.m['is_zero'] = Sig(cl + 'is_zero', [t], 'bool', not LEAK)
        a.m['eq'] = Sig(cl + 'eq', [t, t], 'bool', not LEAK)
        a.m['not'] = Sig(cl + 'not', [t], t, not LEAK)
        for op in ('bitand', 'bitor', 'bitxor', 'enc', 'dec', 'enc_last', 'dec_last'):
            a.m[op] = Sig(cl + op, [t, t], t, not LEAK)
        mod.adts[name] = a
        mod.froms.append((('arr', 'u8', size), t, Sig(cl + 'from_bytes', [('arr', 'u8', size)], t, False)))
        return a

    def conv(src, dst, lean):
        mod.froms.append((src, dst, Sig(lean, [src], dst, True)))

    a = vec('AesBlock', 'B', 16)
    bl = 'Aes.Leak.LBlock.' if LEAK else 'Aes.AesBlock.'
    a.m['mc'] = Sig(bl + 'mc', [B], B, not LEAK)
    a.m['imc'] = Sig(bl + 'imc', [B], B, not LEAK)
    if mod.file == 'aesdefault_x2.rs':
        return
    vec('AesBlockX2', 'X2', 32)
    conv(tup(B, B), X2, 'Aes.AesBlockX2.from_pair')
    conv(X2, tup(B, B), 'Aes.AesBlockX2.to_pair')
    conv(B, X2, 'Aes.AesBlockX2.from_block')
    if mod.file == 'aesdefault_x4.rs':
        return
    vec('AesBlockX4', 'X4', 64)
    conv(tup(B, B, B, B), X4, 'Aes.AesBlockX4.from_quad')
    conv(X4, tup(B, B, B, B), 'Aes.AesBlockX4.to_quad')
    conv(tup(X2, X2), X4, 'Aes.AesBlockX4.from_x2_pair')
    conv(X4, tup(X2, X2), 'Aes.AesBlockX4.to_x2_pair')
    conv(B, X4, 'Aes.AesBlockX4.from_block')
    conv(X2, X4, 'Aes.AesBlockX4.from_x2')
    for n, nb, nk in ((128, 16, 11), (192, 24, 13), (256, 32, 15)):
        mod.fns[f'keygen_{n}'] = Sig(bl + f'keygen_{n}', [('arr', 'u8', nb)], ('arr', B, nk), False)


def read(file):
    return tokenize(open(os.path.join(SRC, file)).read())


def parse(file, choose=None, macros=None):
    def no(branches, line):
        raise Refuse(f'{file}:{line}: cfg_if')
    macros = {} if macros is None else macros
    its = P(read(file), macros).items(choose or no)
    return its, macros


SIZES = {'u8': 1, 'u32': 4, 'u64': 8, 'u128': 16, '__m128i': 16, '__m256i': 32, '__m512i': 64, 'uint8x16_t': 16}


def struct(mod, s, lean, fields):
    """A tuple struct of the module: its Lean type, Layout instance and derived PartialEq."""
    name = s['name']
    tys = [mod.ty(t) for _, t in s['fields']]
    if len(tys) != len(fields):
        raise Refuse(f'{mod.file}: fields of {name}')
    mod.adts[name] = Adt(lean, list(zip(fields, tys)))
    cite = f'src/{mod.file}:{s["lines"][0]}-{s["lines"][1]}'
    if all(not (isinstance(t, tuple) and t[0] == 'adt') for t in tys):
        if s['repr'] not in ('C', 'transparent'):
            raise Refuse(f'{mod.file}: repr of {name}')
        n = sum(SIZES[t[1] if isinstance(t, tuple) else t] for t in tys)
        if len(tys) == 1:
            by, of = f'Layout.bytes self.{fields[0]}', '⟨Layout.ofBytes b⟩'
            t = mod.lean(tys[0])
        else:
            by = 'Layout.bytes (' + ', '.join(f'self.{x}' for x in fields) + ')'
            t = ' × '.join(mod.lean(x) for x in tys)
            of = f'let t : {t} := Layout.ofBytes b\n    ⟨' + ', '.join(proj('t', j, len(tys)) for j in range(len(tys))) + '⟩'
        if not LEAK:
            mod.emit(f'/-- {cite} `repr({s["repr"]})` of `{name}`. -/\ninstance : Layout {lean} {n} where\n'
                     f'  bytes self := {by}\n  ofBytes b := {of}\n')
    if 'PartialEq' in s['derive']:
        cmp = []
        for x, t in zip(fields, tys):
            if isinstance(t, tuple) and t[0] == 'adt':
                cmp.append(f'{mod.method(t[1], "eq").lean} self.{x} other.{x}')
            else:
                cmp.append(f'self.{x} == other.{x}')
        if LEAK:
            cmp = [c if ' == ' not in c else f'{K}eqw ' + c.replace(' == ', ' ') for c in cmp]
            code = cmp[-1]
            for c in reversed(cmp[:-1]):
                code = f'{K}andAlso ({c}) ({code})'
            mod.emit(f'/-- {cite} `#[derive(PartialEq)]`. -/\ndef eq (self other : {lean}) : {K}L Bool :=\n  {code}\n')
        else:
            mod.emit(f'/-- {cite} `#[derive(PartialEq)]`. -/\ndef eq (self other : {lean}) : Bool :=\n  '
                     + ' && '.join(cmp) + '\n')
        mod.fns[(name, 'eq')] = Sig('eq', [('adt', name)] * 2, 'bool', not LEAK)


def record(mod, name, cls, ty, keys, froms, extra, cite, pre='none'):
    """The functions of the module as an instance of the class of Verif/Model/Api.lean."""
    t = ('adt', name)
    out = [f'/-- What src/{mod.file} provides to the rest of the crate. -/',
           f'@[reducible] def {"block" if "Block " in cls.split("X")[0] else "vec"} : {cls} where']

    def m(field, sig, nargs, monadic):
        monadic = monadic or LEAK
        if monadic == (not sig.pure):
            out.append(f'  {field} := {sig.lean}')
        elif monadic:
            v = ' '.join(f'a{i}' for i in range(nargs))
            out.append(f'  {field} := fun {v} => pure ({sig.lean} {v})')
        else:
            raise Refuse(f'{mod.file}: {field} may fault')
    size = {'AesBlock': 16, 'AesBlockX2': 32, 'AesBlockX4': 64}[name]
    m('new', mod.method(name, 'new'), 1, True)
    m('from_bytes', mod.from_fn([f for f in mod.froms if f[0] == ('arr', 'u8', size) and f[1] == t][0]), 1, True)
    m('store_to', mod.method(name, 'store_to'), 2, True)
    for f, k in (('zero', 0), ('is_zero', 1), ('eq', 2), ('bitand', 2), ('bitor', 2), ('bitxor', 2), ('not', 1), ('enc', 2),
                 ('dec', 2), ('enc_last', 2), ('dec_last', 2)):
        m(f, mod.method(name, f), k, False)
    out.append(f'  pre := {pre}')
    for f in extra:
        m(f, mod.method(name, f) or mod.sig(f), 1, f.startswith('keygen'))
    for src, dst, f in froms:
        m(f, mod.from_fn([e for e in mod.froms if e[0] == src and e[1] == dst][0]), 1, False)
    mod.emit('\n'.join(out) + '\n')


def write(name, imports, ns, head, out, doc):
    text = ''.join(f'import {i}\n' for i in imports)
    if LEAK:
        name, ns = 'Leak' + name, 'Leak.' + ns
    text += f'/-\n{doc}\nGenerated by tools/rust2lean.py; do not edit.\n-/\nnamespace RustSrc.{ns}\nopen Rust\n{head}\n\n'
    text += '\n'.join(out) + f'\nend RustSrc.{ns}\n'
    with open(os.path.join(OUT, name + '.lean'), 'w') as f:
        f.write(text)


def consts(mod, its):
    for k, it in its:
        if k == 'const':
            ty = mod.ty(it['ty'])
            tr = FnTr(mod, dict(lines=it['lines']), it['name'], None, None)
            tr.known, tr.fresh_log, tr.env, tr.lines, tr.monadic = [], [], {}, [], False
            e = tr.ex(it['expr'], ty)
            if tr.lines or tr.monadic or not unify(e.ty, ty):
                raise Refuse(f'{mod.file}: const {it["name"]}')
            code = re.sub(r'((?:[^,]*,){8}) ', r'\1\n    ', e.code)
            if LEAK:
                mod.consts[it['name']] = ty
                continue
            mod.emit(f'set_option maxRecDepth 20000 in\n/-- {mod.cite(it)} `{it["name"]}`. -/\n'
                     f'def {it["name"]} : {mod.lean(ty)} :=\n  {code}\n')
            mod.consts[it['name']] = ty


def lib_items(choose):
    return parse('lib.rs', choose)


def imports(ns):
    return ['Verif.Gen.LeakCore', 'Verif.Gen.LeakIntrinsics', f'Verif.Gen.{ns}'] if LEAK else \
        ['Verif.Gen.Core', 'Verif.Gen.Intrinsics']


def core_ns():
    return 'RustSrc.Leak.Core' if LEAK else 'RustSrc.Core'


def traced():
    return ', with the trace of every call' if LEAK else ''


def backend(file, ns, lean, fields, common):
    mod = Module(file, ns)
    mod.vns = ns
    its, mod.macros = parse(file)
    mod.fns.update(common.exports)
    for k, it in its:
        if k == 'struct':
            struct(mod, it, lean, fields)
        elif k == 'extern':
            mod.fns[it['name']] = Sig(it['link'], [mod.ty(t) for _, t in it['params']], mod.ty(it['ret']), not LEAK)
    consts(mod, its)
    keys = []
    for k, it in its:
        if k == 'fn':
            keys.append(mod.add_fn(it, it['name']))
        elif k == 'impl':
            keys += register_impl(mod, it, False)
    # lib.rs instantiates impl_common_ops! at AesBlock; the module uses its TryFrom
    libk = []
    for k, it in common.block_ops:
        it = dict(it, file='lib.rs', fns=[dict(f, file='lib.rs') for f in it['fns']])
        libk += register_impl(mod, it, False)
    for k in keys:
        mod.sig(k)
    has_pre = (('AesBlock', 'pre_enc') in keys, ('AesBlock', 'pre_dec') in keys)
    pre = 'some ⟨pre_enc, pre_dec⟩' if all(has_pre) else 'none'
    record(mod, 'AesBlock', f'{"Aes.Leak.LBlock" if LEAK else "Aes.AesBlock"} {par(lean)}', lean, keys, [],
           ['mc', 'imc', 'keygen_128', 'keygen_192', 'keygen_256'], None, pre)
    write(ns, imports(ns), ns, f'open {core_ns()}\nvariable [Cfg]', mod.out,
          f'src/{file}, function by function{traced()}.')
    for k, it in its:
        if k == 'testmod' and not LEAK:
            tests(mod, it['items'], 'Tests' + ns, ns + '.Tests', 'Verif.Gen.' + ns, f'open {core_ns()}\nvariable [Cfg]')
    return mod


def wide(file, ns, lean, field_names, common, name):
    mod = Module(file, ns)
    mod.vns = ns
    its, mod.macros = parse(file)
    mod.fns.update(common.exports)
    ni = file.startswith('aesni')
    if ni:
        mod.adts['AesBlock'] = Adt('Aes.X86.Block', [('val', ('reg', '__m128i'))])
        if name == 'AesBlockX4':
            mod.adts['AesBlockX2'] = Adt('Aes.NiX2.X2', [('val', ('reg', '__m256i'))])
    else:
        abstract(mod)
    for k, it in its:
        if k == 'struct':
            struct(mod, it, lean, field_names)
    keys = []
    for k, it in its:
        if k == 'fn':
            keys.append(mod.add_fn(it, it['name']))
        elif k == 'impl':
            keys += register_impl(mod, it, False)
        elif k != 'struct':
            raise Refuse(f'{file}: {k}')
    for k in keys:
        mod.sig(k)
    fr = [(tup(B, B), X2, 'from_pair'), (X2, tup(B, B), 'to_pair'), (B, X2, 'from_block')] if name == 'AesBlockX2' else \
        [(tup(B, B, B, B), X4, 'from_quad'), (X4, tup(B, B, B, B), 'to_quad'), (tup(X2, X2), X4, 'from_x2_pair'),
         (X4, tup(X2, X2), 'to_x2_pair'), (B, X4, 'from_block'), (X2, X4, 'from_x2')]
    blk = 'Aes.X86.Block' if ni else 'B'
    cls = f'Aes.AesBlockX2 {blk} {par(lean)}' if name == 'AesBlockX2' else \
        f'Aes.AesBlockX4 {blk} {"Aes.NiX2.X2" if ni else "X2"} {par(lean)}'
    if LEAK:
        cls = f'Aes.Leak.LVec {par(lean)} {32 if name == "AesBlockX2" else 64}'
    record(mod, name, cls, lean, keys, [] if LEAK else fr, [], None)
    var = '' if ni else ' {B : Type} [Aes.AesBlock B]' if name == 'AesBlockX2' else ' {B X2 : Type} [Aes.AesBlockX2 B X2]'
    if LEAK and not ni:
        var = ' {B : Type} [Aes.Leak.LBlock B]' if name == 'AesBlockX2' else ' {X2 : Type} [Aes.Leak.LVec X2 32]'
    write(ns, imports(ns), ns, f'open {core_ns()}\nvariable [Cfg]{var}', mod.out,
          f'src/{file}, function by function{traced()}.')
    return mod


class Common:
    pass


def core_module(chain):
    """src/lib.rs with the given branch of the chain ladder; returns (items, macros, ladders)."""
    ladders = []

    def choose(branches, line):
        mods = [[t[i + 1].s for i in range(len(t)) if t[i].s == 'mod'] for _, t in branches]
        uses = []
        for (_, t), m in zip(branches, mods):
            starts = [i for i in range(len(t)) if t[i].s == 'use'] if m else []
            uses.append([[x.s for x in t[i + 1:i + next(j for j in range(len(t)) if t[i + j].s == ';')] if x.s != '::']
                         for i in starts])
        end = branches[-1][1][-1].line + 2
        ladders.append((line, end, [(c, m, u) for (c, _), m, u in zip(branches, mods, uses)]))
        return None if any(mods) else chain
    its, macros = parse('lib.rs', choose)
    return its, macros, ladders


def core():
    its, macros, ladders = core_module(1)
    mod = Module('lib.rs', 'Core')
    mod.vns = 'Core'
    mod.macros = macros
    c = Common()
    c.exports = {}
    for k, it in its:
        if k == 'fn' and it['name'] in ('array_from_slice', 'try_from_slice'):
            mod.add_fn(it, it['name'])
    for n in ('array_from_slice', 'try_from_slice'):
        s = mod.sig(n)
        c.exports[n] = s
    c.block_ops = [(k, it) for k, it in its if k == 'impl' and it.get('via') and it['trait']
                   and it['ty'] == ('path', 'AesBlock', ()) or
                   (k == 'impl' and it.get('via') and it['trait'] and it['trait'][1] == 'From'
                    and it['trait'][2][0] == ('path', 'AesBlock', ()))]
    write('Core', ['Verif.Gen.LeakPrelude' if LEAK else 'Verif.Gen.Prelude'], 'Core', 'variable [Cfg]', mod.out,
          f'The slice helpers of src/lib.rs, which the modules use{traced()}.')
    c.ladders = ladders
    return c


# ------------------------------------------------------------------------------------------- core::fmt

U8FMT = {'b': 'u8Binary', 'x': 'u8LowerHex', 'X': 'u8UpperHex'}
TRAIT = {'b': 'Binary', 'x': 'LowerHex', 'X': 'UpperHex', '': 'Display', '?': 'Debug'}


def chars(t):
    for c in t:
        if c in "'\\" or not 32 <= ord(c) < 127:
            raise Refuse(f'string {t!r}')
    return '[' + ', '.join(f"'{c}'" for c in t) + ']'


def spec(text):
    """A format spec: (Lean options, type)."""
    m = re.fullmatch(r'(?:(.)?([<>^]))?(\+)?(#)?(0)?(\d+)?([a-zA-Z?]?)', text)
    if not m:
        raise Refuse(f'format spec {text!r}')
    fill, align, plus, alt, zero, width, ty = m.groups()
    fs = []
    if fill:
        fs.append(f"fill := '{fill}'")
    if align:
        fs.append('align := some .' + {'<': 'left', '>': 'right', '^': 'center'}[align])
    if plus:
        fs.append('signPlus := true')
    if alt:
        fs.append('alternate := true')
    if zero:
        fs.append('zeroPad := true')
    if width:
        fs.append(f'width := some {width}')
    return '{ ' + ', '.join(fs) + ' }' if fs else '{}', ty


class FmtTr:
    """Translation of the impls of the core::fmt traits."""

    def __init__(self, mod, its):
        self.mod, self.todo, self.done = mod, {}, {}
        self.vars, self.f = {}, None
        for k, it in its:
            if k == 'impl' and it['trait'] and it['trait'][1] in FMT:
                (f,) = it['fns']
                f['file'], f['via'] = mod.file, it.get('via', [])
                self.todo[(it['trait'][1], mod.ty(it['ty']))] = f
        for k, it in its:
            if k == 'struct' and 'Debug' in it['derive']:
                self.todo[('Debug', ('adt', it['name']))] = it
        for k in list(self.todo):
            self.name(*k)

    def name(self, trait, ty):
        """The Lean function that implements the trait for the type."""
        k = (trait, ty)
        if k in self.todo:
            f = self.todo.pop(k)
            saved = self.vars, self.f
            n = f'{ty[1]}.{trait}.fmt'
            if 'body' in f:
                self.vars = {'self': ty}
                self.f = f['params'][1][0][1]
                if f['params'][0][0][1] != 'self' or f['ret'] != ('path', 'fmt::Result', ()):
                    raise Refuse('fmt signature')
                what, body, arg = '`fmt`', self.block(f['body']), self.f
            else:
                (fld, t), = f['fields']
                t = self.mod.ty(t)
                if t[0] != 'arr':
                    raise Refuse('derived Debug')
                el = self.name('Debug', t[1])
                what, arg = '`#[derive(Debug)]`', 'f'
                body = (f'debugStruct1 f {chars(ty[1])}\n    {chars(fld)}\n    (fun f => debugList f '
                        f'(self.{fld}.toList.map fun x => {el} x))')
            self.mod.emit(f'/-- {self.mod.cite(f)} {what}, `impl {trait} for {ty[1]}`. -/\n'
                          f'def {n} (self : {self.mod.lean(ty)}) ({arg} : Aes.Fmt.Opts) : Aes.Fmt.Action :=\n  {body}\n')
            self.done[k] = n
            self.vars, self.f = saved
        if k not in self.done:
            raise Refuse(f'{trait} for {ty}')
        return self.done[k]

    def block(self, b):
        if b[0] != 'block':
            raise Refuse('fmt: block')
        parts = [self.stmt(s) for s in b[1]]
        parts.append(self.act(b[2]) if b[2] is not None else 'done')
        r = parts[-1]
        for p in reversed(parts[:-1]):
            sep = ' ' if len(p) + len(r) < 80 else '\n    '
            r = f'andThen {par(p)}{sep}{par(r)}'
        return r

    def stmt(self, s):
        if s[0] == 'expr' and s[1][0] == 'try':
            return self.act(s[1][1])
        if s[0] == 'expr' and s[1][0] == 'if':
            return self.act(s[1])
        if s[0] == 'for' and s[1][0] == 'pvar' and s[2][0] == 'call' and s[2][1][0] == 'qself':
            ty = self.mod.ty(s[2][1][1])
            fn, t = self.from_(s[2], ty)
            if ty[0] != 'arr':
                raise Refuse('fmt: for')
            x = s[1][1]
            old = dict(self.vars)
            self.vars[x] = ty[1]
            body = self.block(s[3])
            self.vars = old
            loop = f'forEach %s.toList fun {x} => {body}'
            return f'withM ({fn}) fun it => ' + loop % 'it' if not t else loop % f'({fn})'
        raise Refuse(f'fmt: statement {s[0]}')

    def from_(self, e, ty):
        """`<ty>::from(*x)`: (code, pure)."""
        _, q, args = e
        if q[2] != 'from' or len(args) != 1 or args[0][0] != 'deref' or args[0][1][0] != 'path':
            raise Refuse('fmt: from')
        (x,) = args[0][1][1]
        (c,) = find_from(self.mod, self.vars[x], ty)
        sg = self.mod.from_fn(c)
        return f'{sg.lean} {x}', sg.pure

    def act(self, e):
        if e[0] == 'if':
            if e[1] != ('method', ('path', [self.f], []), 'alternate', [], []):
                raise Refuse('fmt: condition')
            a = self.block(e[2])
            b = 'done' if e[3] is None else self.block(e[3])
            return f'if {self.f}.alternate then {a} else {b}'
        if e[0] == 'method' and e[1] == ('path', [self.f], []) and e[2] == 'write_str':
            return f'write {chars(e[4][0][1])}'
        if e[0] == 'macro' and e[1] == 'write':
            a, c, t = e[2]
            m = re.fullmatch(r'"\{(\w+)(?::([^{}]*))?\}"', t.s)
            if a.s != self.f or c.s != ',' or not m:
                raise Refuse('fmt: write!')
            o, k = spec(m.group(2) or '')
            ty = self.vars[m.group(1)]
            if ty == 'u8':
                return f'{U8FMT[k]} {o} {m.group(1)}'
            return f'{self.name(TRAIT[k], ty)} {m.group(1)} {o}'
        if e[0] == 'call' and e[1] == ('path', ['Ok'], []) and e[2] == [('tuple', [])]:
            return 'done'
        if e[0] == 'call' and e[1][0] == 'path' and e[1][1][1:] == ['fmt'] and e[2][1] == ('path', [self.f], []):
            (x,) = e[2][0][1]
            return f'{self.name(e[1][1][0], self.vars[x])} {x} {self.f}'
        if e[0] == 'method' and e[2] == 'fmt' and e[4] == [('path', [self.f], [])] and e[1][0] == 'call':
            # a tuple implements no other formatting trait than Debug
            ty = self.mod.ty(e[1][1][1])
            fn, pure = self.from_(e[1], ty)
            if ty[0] != 'tuple' or not pure:
                raise Refuse('fmt: method')
            n = len(ty[1])
            return f'debugTuple {self.f} [' + ', '.join(
                f'{self.name("Debug", t)} {par(proj(par(fn), j, n))}' for j, t in enumerate(ty[1])) + ']'
        raise Refuse(f'fmt: {e[0]}')


def lib(chain, ns, common):
    its, macros, _ = core_module(chain)
    mod = Module('lib.rs', ns)
    mod.vns = ns
    mod.macros = macros
    abstract(mod)
    mod.fns.update(common.exports)
    pre = ns.endswith('Pre')
    if pre:
        for f in ('pre_enc', 'pre_dec'):
            mod.adts['AesBlock'].m[f] = Sig(f'{"LHasPre" if LEAK else "HasPre"}.{f}', [B, B], B, not LEAK)
    keys = []
    for k, it in its:
        if k == 'struct':
            m = re.match(r'^(Aes\w+)(Enc|Dec)$', it['name'])
            (fname, fty), = it['fields']
            n = mod.ty(fty)[2]
            if fname != 'round_keys':
                raise Refuse('field of ' + it['name'])
            nr = n - 1 if isinstance(n, int) else n
            mod.adts[it['name']] = Adt(f'Aes.Aes{m.group(2)} B {nr}', {'round_keys': ('round_keys', mod.ty(fty))})
    for k, it in its:
        if k == 'fn':
            if it['name'] not in common.exports:
                keys.append(mod.add_fn(it, it['name']))
        elif k == 'impl':
            keys += register_impl(mod, it, True)
        elif k not in ('struct', 'testmod'):
            raise Refuse(f'lib.rs: {k}')
    for k in keys:
        mod.sig(k)
    if not LEAK:
        FmtTr(mod, its)
    var = 'variable [Cfg] {B X2 X4 : Type} [Aes.AesBlock B] [Aes.AesBlockX2 B X2] [Aes.AesBlockX4 B X2 X4]'
    if LEAK:
        var += '\n  [Aes.Leak.LBlock B] [Aes.Leak.LVec X2 32] [Aes.Leak.LVec X4 64]'
    if pre:
        var += ' [LHasPre B]' if LEAK else ' [HasPre B]'
    if LEAK:
        write('Lib' + ns.split('.')[-1], ['Verif.Gen.LeakCore'], ns, f'open {core_ns()}\n{var}', mod.out,
              f'src/lib.rs, function by function{traced()}, with the branch of its lines 333-426 for targets'
              f' with{"" if pre else "out"} `pre_enc`; without formatting.')
        return mod
    write('Lib' + ns.split('.')[-1], ['Verif.Gen.Core', 'Verif.Model.Fmt'], ns, f'open RustSrc.Core\nopen Aes.Fmt (Action done write andThen withM forEach u8Binary u8LowerHex u8UpperHex debugTuple debugList debugStruct1)\n{var}', mod.out,
          f'src/lib.rs, function by function, with the branch of its lines 333-426 for targets with{"" if pre else "out"}'
          ' `pre_enc`.')
    lib_tests(mod, its, ns.split('.')[-1])
    return mod


def tests(mod, its, name, ns, imp, head, params=lambda n: ''):
    """A test module, over the functions that `mod` has: its functions, and the list of those that `cargo test` runs."""
    mod.out = []
    for k, it in its:
        if k not in ('lazy', 'fn'):
            raise Refuse(f'{mod.file}: {k} in a test module')
        if it['name'] in mod.fns or it['name'] in mod.lazy:
            raise Refuse(f'{mod.file}: {it["name"]} in a test module')
        if k == 'lazy':
            mod.lazy.add(it['name'])
        mod.add_fn(it, it['name'])
    for k, it in its:
        mod.sig(it['name'])
    ts = [it for k, it in its if k == 'fn' and it['test']]
    for it in ts:
        if it['params'] or it['ret'] != ('tuple', ()):
            raise Refuse(f'{mod.file}: test {it["name"]}')
    a, b = min(it['lines'][0] for k, it in its), max(it['lines'][1] for k, it in its)
    mod.emit(f'/-- src/{mod.file}:{a}-{b} The functions marked `#[test]`. -/\ndef suite : List (M Unit) :=\n  ['
             + ', '.join(it['name'] + params(it['name']) for it in ts) + ']\n')
    write(name, [imp], ns, head, mod.out, f'The tests of src/{mod.file}, test by test.')


def lib_tests(mod, its, ns):
    """src/tests.rs, over the functions of src/lib.rs that `mod` has."""
    mods = [it for k, it in its if k == 'testmod']
    if [(m['name'], m['items']) for m in mods] != [('tests', None)]:
        raise Refuse('lib.rs: test modules')
    t, macros = parse('tests.rs', None, dict(mod.macros))
    mod.file, mod.macros = 'tests.rs', macros
    var = 'variable [Cfg] {B X2 X4 : Type} [Aes.AesBlock B] [Aes.AesBlockX2 B X2] [Aes.AesBlockX4 B X2 X4]'
    if ns == 'Pre':
        var += ' [HasPre B]'
    tests(mod, t, 'Tests' + ns, f'Lib.{ns}.Tests', 'Verif.Gen.Lib' + ns, f'open RustSrc.Core\n{var}',
          lambda n: ''.join(f' ({x} := {x})' for x, m in (('B', ''), ('X2', 'AesBlockX2.'), ('X4', 'AesBlockX4.'))
                            if m in next(o for o in mod.out if f'def {n} ' in o)))


# --------------------------------------------------------------------------------- conditional compilation

ARCHS = ('x86', 'x86_64', 'aarch64', 'arm64ec', 'arm', 'riscv64', 'riscv32')
FEATURES = {'sse2': 'sse2', 'ssse3': 'ssse3', 'sse4.1': 'sse41', 'aes': 'aes', 'avx': 'avx', 'avx2': 'avx2',
            'avx512f': 'avx512f', 'vaes': 'vaes', 'v8': 'v8', 'neon': 'neon', 'zkne': 'zkne', 'zknd': 'zknd'}


def cond(c):
    """A cfg predicate as a Bool over Aes.Config.Cfg."""
    if c[0] in ('all', 'any'):
        if not c[1]:
            return 'true' if c[0] == 'all' else 'false'
        return '(' + (' && ' if c[0] == 'all' else ' || ').join(cond(x) for x in c[1]) + ')'
    if c[0] == 'not':
        return f'(!{cond(c[1][0])})'
    _, k, v = c
    if k == 'target_arch' and v in ARCHS:
        return f'c.arch == .{v}'
    if k == 'target_endian' and v in ('little', 'big'):
        return f'c.endian == .{v}'
    if k == 'target_feature' and v in FEATURES:
        return f'c.has .{FEATURES[v]}'
    if k == 'feature' and v in ('nightly', 'constant-time'):
        return {'nightly': 'c.nightly', 'constant-time': 'c.constantTime'}[v]
    raise Refuse(f'cfg({k} = {v})')


def ladders(common):
    out = []
    lads = common.ladders
    if len(lads) != 4:
        raise Refuse('cfg_if! blocks')
    mods = [('AesBlock', 'BlockMod'), ('AesBlockX2', 'X2Mod'), ('AesBlockX4', 'X4Mod')]
    for (line, end, branches), (name, ty) in zip(lads, mods):
        rows = []
        for c, ms, uses in branches:
            (m,) = ms
            if any(u[0] != m for u in uses) or [m, name] not in uses:
                raise Refuse(f'lib.rs:{line}: use of {m}')
            rows.append((c, '.' + m))
        out.append(rows_def(line, end, name, ty, rows, f'the module that defines `{name}`'))
    line, end, branches = lads[3]
    if any(m for _, m, _ in branches) or len(branches) != 2:
        raise Refuse('chain ladder')
    out.append(rows_def(line, end, 'chain', 'Nat', [(c, str(i)) for i, (c, _, _) in enumerate(branches)],
                        'which branch is compiled (branch 0 is translated in Verif/Gen/LibPre.lean, branch 1 in LibStd.lean)'))
    p = P(read('lib.rs'), {})
    gates, a0, a1 = [], None, None
    for a in p.attrs():
        if a[0].s == 'cfg_attr':
            q = P(a[2:-1], {})
            c = q.cfg()
            q.need(',')
            q.need('feature')
            names = [t.s for t in q.ts[q.i + 1:-1] if t.s != ',']
            gates.append(f'(if {cond(c)} then [{", ".join("." + n for n in names)}] else [])')
            a0 = a0 or a[0].line
            a1 = a[-1].line
    out.append(f'/-- src/lib.rs:{a0}-{a1}: the unstable features that are switched on. -/\n'
               f'def gates (c : Cfg) : List Gate :=\n  ' + ' ++\n  '.join(gates) + '\n')
    write('Ladders', ['Verif.Model.Config'], 'Ladders', 'open Aes.Config', out,
          'The conditional compilation of src/lib.rs.')


def rows_def(line, end, name, ty, rows, doc):
    t = f'/-- src/lib.rs:{line}-{end}: {doc}. -/\ndef {name} (c : Cfg) : {ty} :=\n'
    for i, (c, r) in enumerate(rows):
        if c is None:
            if i != len(rows) - 1:
                raise Refuse('cfg_if! without else')
            t += f'  {r}\n'
        else:
            t += f'  if {strip(cond(c))} then {r} else\n'
    return t


def calls():
    """The intrinsics of core::arch that each module names, and the LLVM intrinsics it links to."""
    out = []
    for name, ty, mods in [
            ('block', 'BlockMod', ['aes_x86', 'aes_arm', 'aes_riscv64', 'aes_riscv32', 'aes_bitslice', 'aes_table_based']),
            ('x2', 'X2Mod', ['aesni_x2', 'aesdefault_x2']), ('x4', 'X4Mod', ['aesni_x4', 'aesdefault_x4'])]:
        t, cites = '', []
        for m in mods:
            ts = read(m + '.rs')
            names = []
            for i, k in enumerate(ts):
                n = None
                if k.k == 'id' and k.s in INTRINS:
                    n = k.s
                elif k.s == 'link_name':
                    if ts[i + 1].s != '=' or ts[i + 2].k != 'str':
                        raise Refuse(f'{m}.rs:{k.line}: link_name')
                    n = ts[i + 2].s[1:-1]
                if n and n not in names:
                    names.append(n)
            cites.append(f'src/{m}.rs:1-{ts[-1].line}')
            t += f'  | .{m} => [' + ', '.join(f'"{n}"' for n in names) + ']\n'
        out.append(f'/-- {", ".join(cites)}: the intrinsics that the module names. -/\ndef {name} : {ty} → List String\n{t}')
    write('Calls', ['Verif.Model.Config'], 'Calls', 'open Aes.Config', out,
          'The intrinsics of core::arch that each module of the crate names, and the LLVM intrinsics that it links to.')


INTRINS_PTR = {'_mm_loadu_si128': 'load', '_mm256_loadu_si256': 'load', '_mm512_loadu_si512': 'load', 'vld1q_u8': 'load',
               '_mm_storeu_si128': 'store', '_mm256_storeu_si256': 'store', '_mm512_storeu_si512': 'store', 'vst1q_u8': 'store'}
VEC_SIZE = {'AesBlock': 16, 'AesBlockX2': 32, 'AesBlockX4': 64}
U8_SLICE = ('slice', ('path', 'u8', ()))


class PtrTr:
    """A function that goes through references or pointers, as a program on the memory of Spec/Borrows.lean. A `&mut` argument is retagged on
    entry (`argument`), `x` passed on is `reborrow x`, `&mut x[a..b]` is `index_mut`, and so on; the rest are values."""

    def __init__(self, file, ns, f, lean, params='', self_name=None, self_lean=None, fields=(), ret=None, given=None):
        self.file, self.ns, self.f, self.name, self.params = file, ns, f, lean, params
        self.self_name, self.self_lean, self.fields, self.ret = self_name, self_lean, fields, ret
        self.given = given or {}
        self.env, self.lines, self.locals, self.at = {}, [], [], []

    def refuse(self, what):
        raise Refuse(f'{self.file}:{self.f["lines"][0]}: pointers of {self.f["name"]}: {str(what)[:200]}')

    def kind(self, x):
        if x not in self.env:
            self.refuse(x)
        return self.env[x]

    def var(self, e):
        """The name of a variable."""
        if e[0] == 'path' and len(e[1]) == 1 and not e[2] and e[1][0] in self.env:
            return e[1][0]
        return None

    def line(self, s, depth):
        self.lines.append('  ' * depth + s)

    # references and pointers
    def ref(self, e):
        """A reference passed to a function."""
        x = self.var(e)
        if x and self.env[x] == 'mut':
            return f'(← reborrow {x})'
        if x and self.env[x] == 'shr':
            return x
        if e[0] == 'ref':
            return self.place(e[2], e[1])
        self.refuse(e)

    def place(self, e, mut):
        x = self.var(e)
        if x and self.env[x] == 'local':
            return f'(← {"reborrow" if mut else "borrow"} {x})'
        if e[0] == 'index' and mut and e[2][0] == 'range':
            x = self.var(e[1])
            if x and self.env[x] == 'mut':
                lo = '0' if e[2][1] is None else self.usize(e[2][1])
                hi = f'{x}.len' if e[2][2] is None else self.usize(e[2][2])
                return f'(← index_mut {x} {lo} {hi})'
        self.refuse(e)

    def ptr(self, e):
        x = self.var(e)
        if x and self.env[x] == 'raw':
            return x
        if e[0] == 'method' and e[2] == 'cast' and not e[4]:
            return self.ptr(e[1])
        if e[0] == 'method' and e[2] == 'add' and len(e[4]) == 1:
            return f'({self.ptr(e[1])}.add {self.usize(e[4][0])})'
        if e[0] == 'method' and e[2] in ('as_ptr', 'as_mut_ptr') and not e[4]:
            x = self.var(e[1])
            k = self.env.get(x)
            if e[2] == 'as_mut_ptr' and k in ('mut', 'local'):
                return f'(← mut_ptr {x})'
            if e[2] == 'as_ptr' and k == 'shr':
                return f'(← const_ptr {x})'
            if e[2] == 'as_ptr' and k == 'local':
                return f'(← const_ptr (← borrow {x}))'
        self.refuse(e)

    # values
    def usize(self, e):
        if e[0] == 'int' and e[2] in (None, 'usize'):
            return str(e[1])
        x = self.var(e)
        if x and self.env[x] == 'usize':
            return x
        if e[0] == 'method' and e[2] == 'len' and not e[4]:
            x = self.var(e[1])
            if x and self.env[x] in ('mut', 'shr'):
                return f'{x}.len'
        if e[0] == 'bin' and e[1] in ('+', '-'):
            op = {'+': 'uadd', '-': 'usub'}[e[1]]
            return f'(← liftM (Aes.Profile.{op} Cfg.profile {self.usize(e[2])} {self.usize(e[3])}))'
        if e[0] == 'bin' and e[1] == '/' and e[3][0] == 'int' and e[3][1] > 0:
            return f'({self.usize(e[2])} / {e[3][1]})'
        self.refuse(e)

    def cond(self, e):
        if e[0] == 'bin' and e[1] in ('>=', '>', '<', '<=', '=='):
            op = {'>=': '≥', '<=': '≤', '==': '='}.get(e[1], e[1])
            return f'(decide ({self.usize(e[2])} {op} {self.usize(e[3])}))'
        self.refuse(e)

    def val(self, e, size=None):
        """A value; `size`: the length of an array of bytes whose type is inferred."""
        if e[0] == 'block' and not e[1] and e[2] is not None:  # unsafe { e }
            return self.val(e[2], size)
        x = self.var(e)
        if x:
            k = self.env[x]
            if k == 'val':
                return x
            if k == 'local':
                n, conv = self.at_size[x]
                code = f'← read {x}.tag {x}.ptr {n}'
                return f'({conv} ({code}))' if conv else f'({code})'
            self.refuse(e)
        if e[0] == 'deref':
            x = self.var(e[1])
            if x and self.env[x] == 'shrarr':
                return f'(← read {x}.tag {x}.ptr {self.arr[x]})'
            if x and self.env[x] == 'mutval':
                return f'(← load {x})'
            if size is None:
                self.refuse(e)
            return f'(← read_bytes {self.ptr(e[1])} {size})'
        if e[0] == 'field' and self.var(e[1]) == 'self' and isinstance(e[2], int):
            if e[2] >= len(self.fields):
                self.refuse(e)
            return f'self.{self.fields[e[2]][0]}'
        if e[0] == 'index':
            x = self.var(e[1])
            if x and self.env[x] == 'words':
                return f'(← get Cfg.endian {x} {self.usize(e[2])})'
            if e[1] == ('path', ['RCON'], []):
                return f'(← liftM (idx RustSrc.{self.ns}.RCON {self.usize(e[2])}))'
        if e[0] == 'bin' and e[1] in ('^', '&', '|'):
            if self.env.get('self') == 'mutval':
                f = {'^': 'bitxor', '&': 'bitand', '|': 'bitor'}[e[1]]
                return f'({f} {self.val(e[2])} {self.val(e[3])})'
            op = {'^': '^^^', '&': '&&&', '|': '|||'}[e[1]]
            return f'({self.val(e[2])} {op} {self.val(e[3])})'
        if e[0] == 'bin' and e[1] in ('>>', '<<') and e[3][0] == 'int' and e[3][1] < 32 and self.var(e[2]) == 'num':
            return f'({self.val(e[2])} {">>>" if e[1] == ">>" else "<<<"} {e[3][1]})'
        if e[0] == 'cast' and e[2] == ('path', 'u8', ()):
            return f'({self.val(e[1])}.setWidth 8)'
        if e[0] == 'method' and e[2] in ('rotate_right', 'rotate_left') and len(e[4]) == 1 and e[4][0][0] == 'int':
            return f'({self.val(e[1])}.{"rotateRight" if e[2] == "rotate_right" else "rotateLeft"} {e[4][0][1]})'
        if e[0] == 'method' and e[2] == 'to_ne_bytes' and e[1][0] == 'field':
            t = self.fields[e[1][2]][1]
            return f'(toNe Cfg.endian {SIZES[t]} {self.val(e[1])})'
        if e[0] == 'method' and e[2] == 'into' and not e[4] and self.given.get('into'):
            n = self.given['into']
            return f'(← liftM (from_T {self.val(e[1], n)}))'
        if e[0] == 'call' and e[1][0] == 'path' and not e[1][2]:
            p, a = e[1][1], e[2]
            if p == ['sub_word']:
                return f'(RustSrc.{self.ns}.sub_word ' + ' '.join(self.val(x) for x in a) + ')'
            if p == ['u32', 'from_ne_bytes'] and a[0][0] == 'method' and a[0][2] == 'unwrap' and a[0][1][0] == 'method' \
                    and a[0][1][2] == 'try_into' and self.env.get(self.var(a[0][1][1])) == 'chunk':
                return f'(fromNe Cfg.endian 32 (← liftM (arrayTryFrom 4 {self.var(a[0][1][1])})))'
            if p == ['array_from_slice'] and len(a) == 2 and size is not None:
                return f'(← array_from_slice {size} {self.ref(a[0])} {self.usize(a[1])})'
            if p == ['Self'] and self.self_lean:
                return f'(⟨' + ', '.join(self.val(x) for x in a) + f'⟩ : {self.self_lean})'
            if len(p) == 2 and p[1] == 'new' and p[0] in VEC_SIZE and len(a) == 1 and p[0] == self.given.get('new'):
                return f'(← liftM (new {self.val(a[0], VEC_SIZE[p[0]])}))'
            if p[-1] in INTRINS_PTR and INTRINS_PTR[p[-1]] == 'load' and len(a) == 1:
                return f'(← {p[-1]} {self.ptr(a[0])})'
            if p == ['Ok'] and len(a) == 1:
                return f'(Except.ok {self.val(a[0])})'
            if p == ['Err'] and len(a) == 1:
                return f'(Except.error {self.usize(a[0])})'
            if p == ['try_from_slice'] and len(a) == 1 and self.given.get('into'):
                return f'(← try_from_slice {self.given["into"]} from_T {self.ref(a[0])})'
        self.refuse(e)

    # statements
    def stmt(self, s, d):
        if s[0] == 'expr':
            return self.effect(s[1], d)
        if s[0] == 'let':
            return self.let(s, d)
        if s[0] == 'assign':
            lhs, rhs = s[1], s[2]
            if lhs[0] == 'index':
                x = self.var(lhs[1])
                k = self.env.get(x)
                if k in ('mut', 'words'):
                    self.line(f'let rhs := {self.val(rhs)}', d)
                    op = 'set' if k == 'mut' else 'put Cfg.endian'
                    self.line(f'{op} {x} {self.usize(lhs[2])} rhs', d)
                    return
            if lhs[0] == 'deref' and self.env.get(self.var(lhs[1])) == 'mutval':
                self.line(f'let rhs := {self.val(rhs)}', d)
                self.line(f'store {self.var(lhs[1])} rhs', d)
                return
            self.refuse(s)
        if s[0] == 'for':
            return self.for_(s, d)
        self.refuse(s)

    def effect(self, e, d):
        if e[0] == 'block':
            for x in e[1]:
                self.stmt(x, d)
            if e[2] is not None:
                self.effect(e[2], d)
            return
        if e[0] == 'macro' and e[1] in ('assert', 'debug_assert'):
            c = P(e[2], {}).expr()
            if e[1] == 'assert':
                self.line(f'require {self.cond(c)}', d)
            else:
                body = self.cond(c).replace('← liftM (', '← (')
                self.line(f'liftM (Aes.Profile.debugAssert Cfg.profile (do pure {body}))', d)
            return
        if e[0] == 'call' and e[1][0] == 'path' and not e[1][2]:
            p, a = e[1][1], e[2]
            if p == ['store_u32_be'] and len(a) == 2:
                self.line(f'{self.ns}.store_u32_be {self.ref(a[0])} {self.val(a[1])}', d)
                return
            if p[-1] in INTRINS_PTR and INTRINS_PTR[p[-1]] == 'store' and len(a) == 2:
                self.line(f'{p[-1]} {self.ptr(a[0])} {self.val(a[1])}', d)
                return
        if e[0] == 'method' and e[2] == 'store_to' and len(e[4]) == 1 and self.given.get('store_to'):
            self.line(f'store_to {self.val(e[1])} {self.ref(e[4][0])}', d)
            return
        if e[0] == 'method' and e[2] == 'copy_from_slice' and len(e[4]) == 1 and e[4][0][0] == 'ref' and not e[4][0][1]:
            self.line(f'copy_from_slice {self.place(e[1], True)} {self.val(e[4][0][2])}', d)
            return
        if e[0] == 'method' and e[2] == 'write_unaligned' and len(e[4]) == 1 and e[1][0] == 'method' and e[1][2] == 'cast' \
                and e[1][3] == [('path', 'Self', ())]:
            self.line(f'write_unaligned {self.ptr(e[1])} {self.val(e[4][0])}', d)
            return
        self.refuse(e)

    def unblock(self, e):
        while e[0] == 'block' and not e[1] and e[2] is not None:
            e = e[2]
        return e

    def let(self, s, d):
        _, pat, ty, e = s
        if pat[0] != 'pvar':
            self.refuse(s)
        x, e = pat[1], self.unblock(e)
        if e == ('call', ('path', ['mem', 'zeroed'], []), []) and ty and ty[0] == 'arr' and ty[1] == ('path', self.self_name, ()):
            n = f'({ty[2]} * {VEC_SIZE[self.self_name]})'
            self.local(x, n, f'Vector.replicate {n} 0#8', f'Layout.ofBytes', d)
            return
        if e[0] == 'repeat' and e[1] == ('int', 0, None) and ty is None:
            self.local(x, str(e[2]), f'Vector.replicate {e[2]} 0#8', '', d)
            return
        if ty is not None and ty[0] == 'ptr':
            if ty[1] != ('path', 'u32', ()):
                self.refuse(s)
            self.line(f'let {x} := {self.ptr(e)}', d)
            self.env[x] = 'raw'
            return
        if e[0] == 'call' and e[1] == ('path', ['slice', 'from_raw_parts_mut'], []) and len(e[2]) == 2 and ty is None:
            self.line(f'let {x} ← from_raw_parts_mut {self.ptr(e[2][0])} {self.usize(e[2][1])}', d)
            self.env[x] = 'words'
            return
        self.refuse(s)

    def local(self, x, n, init, conv, d):
        self.line(f'let {x} : Ref := ⟨{x}_at, {n}, ← allocate {x}_at {par(init)}⟩', d)
        self.env[x] = 'local'
        self.at_size[x] = (n, conv)
        self.locals.append(x)
        self.at.append(f'{x}_at')

    def for_(self, s, d):
        _, pat, it, blk = s
        if pat[0] == 'ptuple' and it[0] == 'method' and it[2] == 'enumerate' and it[1][0] == 'method' and it[1][2] == 'chunks_exact':
            (_, i), (_, ch) = pat[1]
            x = self.var(it[1][1])
            if not x or self.env[x] != 'val':
                self.refuse(s)
            self.line(f'(enumerate (chunksExact {self.usize(it[1][4][0])} {x}.toList)).forM fun ({i}, {ch}) => do', d)
            names = {i: 'usize', ch: 'chunk'}
        elif pat[0] == 'pvar' and it[0] == 'method' and it[2] == 'step_by' and it[1][0] == 'range':
            names = {pat[1]: 'usize'}
            self.line(f'(rangeStep {self.usize(it[1][1])} {self.usize(it[1][2])} {self.usize(it[4][0])}).forM fun {pat[1]} => do', d)
        else:
            self.refuse(s)
        if blk[0] != 'block' or blk[2] is not None:
            self.refuse(s)
        old = dict(self.env)
        self.env.update(names)
        for x in blk[1]:
            self.stmt(x, d + 1)
        self.env = old

    def run(self, cite):
        f = self.f
        self.at_size, self.arr = {}, {}
        sig, entry, consts = [], [], [c[0] for c in f['consts']]
        for c in consts:
            self.env[c] = 'usize'
        body = f['body']
        has_ref = False
        for (p, x), ty in f['params']:
            if p != 'pvar':
                self.refuse(x)
            if ty[0] == 'ref' and ty[2] == U8_SLICE:
                has_ref = True
                sig.append(f'({x} : Ref)')
                entry.append(f'let {x} ← argument{"" if ty[1] else "_shared"} c {x}')
                self.env[x] = 'mut' if ty[1] else 'shr'
            elif ty[0] == 'ref' and not ty[1] and ty[2][0] == 'arr':
                has_ref = True
                sig.append(f'({x} : Ref)')
                entry.append(f'let {x} ← argument_shared c {x}')
                self.env[x], self.arr[x] = 'shrarr', ty[2][2]
            elif ty[0] == 'ref' and ty[1] and ty[2] == ('path', 'Self', ()) and x == 'self':
                has_ref = True
                sig.append(f'(self : Ref)')
                entry.append(f'let self ← argument c self')
                self.env[x] = 'mutval'
            elif ty[0] == 'arr' and ty[1] == ('path', 'u8', ()):
                sig.append(f'({x} : Vector U8 {ty[2]})')
                if x == 'key':
                    self.env[x] = 'val'
                else:  # its address is taken
                    entry.append(('local', x, ty[2]))
            elif ty == ('path', 'u32', ()):
                sig.append(f'({x} : U32)')
                self.env[x] = 'val'
            elif ty == ('path', 'usize', ()):
                sig.append(f'({x} : Nat)')
                self.env[x] = 'usize'
            elif ty in (('path', 'Self', ()), ('path', self.self_name, ())):
                sig.append(f'({x} : {self.self_lean})')
                self.env[x] = 'val'
            else:
                self.refuse(ty)
        d = 1
        for e in entry:
            if isinstance(e, tuple):
                self.local(e[1], str(e[2]), e[1], '', d)
            else:
                self.line(e, d)
        while body[0] == 'block' and not body[1] and body[2] is not None and body[2][0] == 'block':
            body = body[2]
        unit = f['ret'] == ('tuple', ())
        for s in body[1]:
            self.stmt(s, d)
        if body[2] is not None and unit:
            self.effect(body[2], d)
        elif body[2] is not None and body[2][0] == 'if':
            _, c, a, b = body[2]
            if self.locals or a[1] or b[1]:
                self.refuse(body[2])
            self.line(f'if {self.cond(c)} then do', d)
            self.line(f'pure {self.val(a[2])}', d + 1)
            self.line('else do', d)
            self.line(f'pure {self.val(b[2])}', d + 1)
        elif body[2] is not None:
            n = f['ret'][2] if f['ret'][0] == 'arr' and f['ret'][1] == ('path', 'u8', ()) else None
            r = self.val(body[2], n)
            if self.locals:
                self.line(f'let result : {self.ret} := {r}', d)
                for x in reversed(self.locals):
                    self.line(f'deallocate {x}.tag {x}.ptr {x}.len', d)
                self.line('pure result', d)
            else:
                self.line(f'pure {r}', d)
        elif not unit:
            self.refuse(body)
        head = ' '.join([f'({c} : Nat)' for c in consts] + ([self.params] if self.params else []) + [f'({a} : Nat)' for a in self.at] + sig)
        ret = 'Unit' if unit else self.ret
        text = f'/-- {cite} `{f["name"]}`. -/\ndef {self.name} {head} : B {par(ret)} := '
        text += 'call fun c => do\n' if has_ref else 'do\n'
        return text + '\n'.join(self.lines) + '\n'


def pointers():
    """The functions that go through references and pointers."""
    out = []

    def emit(file, ns, f, lean, via=(), **k):
        a, b = f['lines']
        cite = f'src/{file}:{a}' + (f'-{b}' if a != b else '') + ''.join(f',{v}' for v in via)
        out.append(PtrTr(file, ns, f, lean, **k).run(cite))

    its, _ = lib_items(lambda branches, line: 0)
    fns = {it['name']: it for k, it in its if k == 'fn'}
    emit('lib.rs', 'Core', fns['array_from_slice'], 'array_from_slice', ret='(Vector U8 N)')
    emit('lib.rs', 'Core', fns['try_from_slice'], 'try_from_slice', params='{T : Type} (from_T : Vector U8 N → M T)',
         ret='(Except Nat T)', given={'into': 'N'})
    for k, it in its:
        if k != 'impl':
            continue
        tr, ty = it['trait'], it['ty']
        name = ty[1] if ty[0] == 'path' else None
        n = VEC_SIZE.get(name)
        via = it.get('via', [])
        if tr and tr[1] == 'TryFrom':
            emit('lib.rs', 'Core', it['fns'][0], f'{name}.try_from', via, params=f'{{T : Type}} (from_T : Vector U8 {n} → M T)', self_name=name,
                 ret='(Except Nat T)', given={'into': n})
        elif tr and tr[1] == 'From' and tr[2][0][0] == 'ref':
            if tr[2][0][2] != ('arr', ('path', 'u8', ()), n):
                raise Refuse(f'lib.rs: From<&{tr[2][0]}> for {name}')
            emit('lib.rs', 'Core', it['fns'][0], f'{name}.from_ref', via, params=f'{{T : Type}} (from_T : Vector U8 {n} → M T)', self_name=name,
                 ret='T', given={'into': n})
        elif tr and tr[1] == 'From' and ty[0] == 'arr' and ty[1] == ('path', 'u8', ()):
            src = tr[2][0][1]
            emit('lib.rs', 'Core', it['fns'][0], f'{src}.into_bytes', via, params='{T : Type} (store_to : T → Ref → B Unit)', self_name=src,
                 self_lean='T', ret=f'(Vector U8 {ty[2]})', given={'store_to': True})
        elif tr and tr[1] in ('BitAndAssign', 'BitOrAssign', 'BitXorAssign') and n:
            want = {'BitAndAssign': 'bitand_assign', 'BitOrAssign': 'bitor_assign', 'BitXorAssign': 'bitxor_assign'}[tr[1]]
            if [f['name'] for f in it['fns']] != [want]:
                raise Refuse(f'lib.rs: impl {tr[1]}')
            emit('lib.rs', 'Core', it['fns'][0], f'{name}.{want}', via,
                 params=f'{{T : Type}} [Layout T {n}] (bitand bitor bitxor : T → T → T)', self_name=name, self_lean='T')
    for file, ns, lean, fields, name in [
            ('aes_table_based.rs', 'Table', 'Aes.Table.Block', ['w0', 'w1', 'w2', 'w3'], 'AesBlock'),
            ('aes_bitslice.rs', 'Bitslice', '(Aes.Bitslice.Block Cfg.endian)', ['val'], 'AesBlock'),
            ('aes_x86.rs', 'X86', 'Aes.X86.Block', ['val'], 'AesBlock'),
            ('aes_arm.rs', 'Arm', '(Aes.Arm.Block Cfg.is32)', ['val'], 'AesBlock'),
            ('aes_riscv64.rs', 'Riscv64', 'Aes.Riscv64.Block', ['d0', 'd1'], 'AesBlock'),
            ('aes_riscv32.rs', 'Riscv32', 'Aes.Riscv32.Block', ['w0', 'w1', 'w2', 'w3'], 'AesBlock'),
            ('aesdefault_x2.rs', 'DefaultX2', '(Aes.DefaultX2.X2 T)', ['f0', 'f1'], 'AesBlockX2'),
            ('aesdefault_x4.rs', 'DefaultX4', '(Aes.DefaultX4.X4 T)', ['f0', 'f1'], 'AesBlockX4'),
            ('aesni_x2.rs', 'NiX2', 'Aes.NiX2.X2', ['val'], 'AesBlockX2'),
            ('aesni_x4.rs', 'NiX4', 'Aes.NiX4.X4', ['val'], 'AesBlockX4')]:
        its, _ = parse(file)
        (st,) = [it for k, it in its if k == 'struct' and it['name'] == name]
        fs = list(zip(fields, [t[1] for _, t in st['fields']]))
        n, halves = VEC_SIZE[name], ns.startswith('Default')
        half = {'AesBlockX2': 'AesBlock', 'AesBlockX4': 'AesBlockX2'}.get(name)
        k1 = dict(self_name=name, self_lean=lean, fields=fs)
        for k, it in its:
            if k == 'fn' and it['name'] == 'store_u32_be':
                emit(file, ns, it, f'{ns}.store_u32_be')
            elif k == 'fn' and re.match(r'^keygen_\d+$', it['name']) and 'from_raw_parts_mut' in str(it['body']):
                emit(file, ns, it, f'{ns}.{it["name"]}', ret=f'(Vector {lean} {it["ret"][2]})', **k1)
            elif k == 'impl' and it['ty'] == ('path', name, ()):
                for f in it['fns']:
                    if it['trait'] is None and f['name'] == 'store_to':
                        emit(file, ns, f, f'{ns}.store_to', params='{T : Type} (store_to : T → Ref → B Unit)' if halves else '',
                             given={'store_to': halves}, **k1)
                    elif it['trait'] is None and f['name'] == 'new' and halves:
                        emit(file, ns, f, f'{ns}.new', params=f'{{T : Type}} (new : Vector U8 {n // 2} → M T)', ret=lean, given={'new': half}, **k1)
                    elif it['trait'] and it['trait'][1] == 'From' and 'as_ptr' in str(f['body']):
                        emit(file, ns, f, f'{ns}.from_array', ret=lean, **k1)
    write('Borrow', ['Verif.Gen.BorrowPrelude', 'Verif.Gen.Bitslice', 'Verif.Gen.Arm', 'Verif.Gen.Riscv64', 'Verif.Gen.Riscv32'], 'Ptr',
          'open Aes.Borrow\nset_option linter.unusedVariables false\nvariable [Cfg]', out, 'The functions of the crate that go through references and pointers, on the memory of Spec/Borrows.lean.')


def modules():
    c = core()
    backend('aes_table_based.rs', 'Table', 'Aes.Table.Block', ['w0', 'w1', 'w2', 'w3'], c)
    backend('aes_bitslice.rs', 'Bitslice', '(Aes.Bitslice.Block Cfg.endian)', ['val'], c)
    backend('aes_x86.rs', 'X86', 'Aes.X86.Block', ['val'], c)
    backend('aes_arm.rs', 'Arm', '(Aes.Arm.Block Cfg.is32)', ['val'], c)
    backend('aes_riscv64.rs', 'Riscv64', 'Aes.Riscv64.Block', ['d0', 'd1'], c)
    backend('aes_riscv32.rs', 'Riscv32', 'Aes.Riscv32.Block', ['w0', 'w1', 'w2', 'w3'], c)
    wide('aesdefault_x2.rs', 'DefaultX2', '(Aes.DefaultX2.X2 B)', ['f0', 'f1'], c, 'AesBlockX2')
    wide('aesdefault_x4.rs', 'DefaultX4', '(Aes.DefaultX4.X4 X2)', ['f0', 'f1'], c, 'AesBlockX4')
    wide('aesni_x2.rs', 'NiX2', 'Aes.NiX2.X2', ['val'], c, 'AesBlockX2')
    wide('aesni_x4.rs', 'NiX4', 'Aes.NiX4.X4', ['val'], c, 'AesBlockX4')
    lib(1, 'Lib.Std', c)
    lib(0, 'Lib.Pre', c)
    return c


def main():
    global LEAK
    os.makedirs(OUT, exist_ok=True)
    ladders(modules())
    calls()
    pointers()
    LEAK = True
    modules()


if __name__ == '__main__':
    main()
