#!/usr/bin/env python3
"""Read functions of /repo as text and transcribe their syntax to lean/Verif/Rust/Text.lean.

The output is a syntax tree for each function (the type `Expr` of lean/Verif/Rust/Syntax.lean); types,
lifetimes and attributes are left out. Besides parsing, the tool
* writes `if let`, `while`, `assert!`, `x op= y`, `try!` and `mut` parameters the long way,
* writes calls of paths with a capital last segment, and ranges, as constructors, and `Trait::method(x, ..)` as `x.method(..)`,
* expands the macros of src/combinators/macros.rs (their definitions are read from there); the methods of the types declared
  in the expansion go to the table of functions, and the name of such a type says which function it is in,
* writes the arguments of `write!` and `println!` one after the other, with `Debug` where the format says `{:?}` and `Display`
  where it says `{}`,
* expands `parse!` in examples/ (only the statements which occur there; Verif/Props/RustHttp.lean checks the outcome against
  the expansion of C112), writes patterns which are bytes or ranges of bytes as conditions, and `b"..."` as `bytes!(..)`,
* writes `http::f` for the functions of examples/http_parser.rs,
* adds what type inference finds out where a name alone does not tell which function it is (INFERRED)."""
import re, os

REPO = os.environ.get('REPO', '/repo')
OUT = os.environ.get('OUT', '/verif/lean/Verif/Rust/Text.lean')

TOK = re.compile(r"""\s+|//[^\n]*|(?P<str>b?"(?:\\.|[^"\\])*")|(?P<chr>b?'(?:\\.|[^'\\])')|(?P<life>'[a-z_]\w*)"""
                 r"""|(?P<num>\d+)|(?P<id>[A-Za-z_]\w*)"""
                 r"""|(?P<op>::|->|=>|!=|==|<=|>=|&&|\|\||\.\.\.|\.\.|\+=|-=|\*=|.)""", re.S)
ESC = {'n': 10, 't': 9, 'r': 13, '0': 0, '\\': 92, "'": 39}

# (function, path as written, how many-th occurrence or None for all) -> the function which is meant
INFERRED = {
    ('ParseResult::bind', 'From::from', 0): '<V as From<V>>::from',
    ('ParseResult::bind', 'From::from', 1): '<V as From<E>>::from',
    ('signed', 'T::value_from', None): '<T as ValueFrom<i8>>::value_from',
    ('to_decimal', 'T::value_from', None): '<T as ValueFrom<u8>>::value_from',
}

# literals which are an `i32`: function -> which ones
I32 = {'http::main': {1, 2}}
# functions of the examples: file -> prefix, names
EXAMPLES = {}

# places which are looked at by `Deref` (in functions of this type)
DEREF = {'Source': ('field', ('path', 'self'), 'buffer')}
# constants of the file at hand
CONSTS = {}

# functions all of whose numbers are of type u8
U8 = {'is_whitespace', 'to_decimal'}

def lex(s, line=1):
    out, k = [], 0
    while k < len(s):
        m = TOK.match(s, k)
        if m.lastgroup: out.append((m.lastgroup, m.group(), line))
        line += m.group().count('\n'); k = m.end()
    return out

class Macro:
    """`macro_rules!` with one rule."""
    def __init__(self, name, pattern, body):
        self.name, self.pattern, self.body = name, pattern, body
        self.bound = set()
        for k in range(len(body)):
            if body[k][1] == 'let':
                j = k + 1
                while body[j][1] not in ('=', ':'):
                    if body[j][1] == '$': j += 1
                    elif body[j][0] == 'id' and body[j][1] != 'mut' and body[j][1][0].islower(): self.bound.add(body[j][1])
                    j += 1

    def expand(self, toks):
        binds, k = {}, 0
        k = self.match(self.pattern, toks, 0, binds)
        assert k == len(toks), (self.name, toks[k])
        # hygiene: what is passed does not mention variables of the macro
        for v in binds.values():
            for frag in (v if isinstance(v, list) and v and isinstance(v[0], list) else [v]):
                assert not self.bound & {t[1] for t in frag}, self.name
        return self.transcribe(self.body, binds, None)

    def match(self, pat, toks, k, binds):
        j = 0
        while j < len(pat):
            if pat[j][1] == '$' and pat[j + 1][1] == '(':
                e = close(pat, j + 1)
                sub, sep = pat[j + 2:e], pat[e + 1][1]
                assert pat[e + 2][1] == '*'
                names = [sub[x + 1][1] for x in range(len(sub)) if sub[x][1] == '$']
                for n in names: binds[n] = []
                while k < len(toks):
                    b = {}
                    k = self.match(sub, toks, k, b)
                    for n in names: binds[n].append(b[n])
                    if k < len(toks) and toks[k][1] == sep: k += 1
                    else: break
                j = e + 3
            elif pat[j][1] == '$':
                name, kind = pat[j + 1][1], pat[j + 3][1]
                p = P(toks, 'macro')
                p.k = k
                if kind == 'expr': p.expr()
                elif kind == 'ident': p.next()
                elif kind == 'block': p.skip_group()
                elif kind == 'pat': p.pat()
                elif kind == 'ty': p.skip_type((':', '{', ',', ')', '}', None))
                frag = toks[k:p.k]
                if kind == 'expr': frag = [('op', '(', frag[0][2])] + frag + [('op', ')', frag[-1][2])]
                binds[name] = frag
                k = p.k; j += 4
            elif pat[j][1] in '([{':
                assert toks[k][1] == pat[j][1], (self.name, toks[k])
                e, f = close(pat, j), close(toks, k)
                assert self.match(pat[j + 1:e], toks[:f], k + 1, binds) == f, (self.name, toks[k])
                j, k = e + 1, f + 1
            else:
                assert toks[k][1] == pat[j][1], (self.name, toks[k], pat[j])
                j += 1; k += 1
        return k

    def transcribe(self, body, binds, n):
        out, j = [], 0
        while j < len(body):
            if body[j][1] == '$' and body[j + 1][1] == '(':
                e = close(body, j + 1)
                sub = body[j + 2:e]
                names = [sub[x + 1][1] for x in range(len(sub)) if sub[x][1] == '$']
                count = len(binds[names[0]])
                for i in range(count):
                    if i: out.append(body[e + 1])
                    out += self.transcribe(sub, {**binds, **{m: binds[m][i] for m in names}}, i)
                j = e + 3
            elif body[j][1] == '$':
                out += binds[body[j + 1][1]]; j += 2
            else: out.append(body[j]); j += 1
        return out

def close(toks, k):
    """Where the group opened at `k` is closed."""
    d = 0
    while True:
        x = toks[k][1]
        if x in ('(', '[', '{'): d += 1
        if x in (')', ']', '}'): d -= 1
        if d == 0: return k
        k += 1

def read_macros(path):
    toks, out = lex(open(REPO + '/' + path).read()), {}
    k = 0
    while k < len(toks):
        assert toks[k][1] == 'macro_rules', toks[k]
        name, e = toks[k + 2][1], close(toks, k + 3)
        a = k + 4
        b = close(toks, a)
        assert toks[b + 1][1] == '=>'
        c = close(toks, b + 2)
        assert c == e - 1
        out[name] = Macro(name, toks[a + 1:b], toks[b + 3:c])
        k = e + 1
        if k < len(toks) and toks[k][1] == ';': k += 1
    return out

MACROS = {}
MACRO_FILE = 'src/combinators/macros.rs'

class Fn:
    def __init__(self, name, params, body, bymut, cfg, a, b, path):
        self.name, self.params, self.body, self.bymut, self.cfg = name, params, body, bymut, cfg
        self.a, self.b, self.path = a, b, path

UNIT = ('tuple', [])

class P:
    def __init__(self, toks, path='', fname=''):
        self.t, self.k, self.path, self.fname, self.seen = toks, 0, path, fname, {}
        self.lifted, self.local = [], set()
    def peek(self, d=0): return self.t[self.k + d][1] if self.k + d < len(self.t) else None
    def kind(self, d=0): return self.t[self.k + d][0] if self.k + d < len(self.t) else None
    def line(self): return self.t[self.k][2]
    def next(self): self.k += 1; return self.t[self.k - 1][1]
    def eat(self, x):
        assert self.peek() == x, (self.path, self.t[self.k], x)
        self.k += 1
    def opt(self, x):
        if self.peek() == x: self.k += 1; return True
        return False
    def skip_group(self):
        """Skip one bracketed group."""
        d = 0
        while True:
            x = self.next()
            if x in '([{': d += 1
            if x in ')]}': d -= 1
            if d == 0: return
    def skip_type(self, stop):
        d = 0
        while not (d == 0 and self.peek() in stop):
            x = self.next()
            if x in ('<', '(', '['): d += 1
            if x in ('>', ')', ']'): d -= 1
    def skip_generics(self):
        d = 0
        while True:
            x = self.next()
            if x == '<': d += 1
            if x == '>':
                d -= 1
                if d == 0: return

    # ---- patterns
    def pat(self):
        if self.opt('_'): return ('wild',)
        if self.opt('&'):
            self.opt('mut'); return self.pat()
        if self.opt('ref'): self.opt('mut'); return ('bind', False, self.next())
        if self.opt('mut'): return ('bind', True, self.next())
        if self.kind() == 'num': return ('num', int(self.next()))
        if self.opt('('):
            ps = []
            while not self.opt(')'):
                ps.append(self.pat()); self.opt(',')
            return ('ptuple', ps)
        p = self.pathname()
        if p.split('::')[-1][0].isupper():
            ps = []
            if self.opt('('):
                while not self.opt(')'):
                    ps.append(self.pat()); self.opt(',')
            return ('pcon', p, ps)
        return ('bind', False, p)

    def pathname(self):
        p = self.next()
        while self.peek() == '::':
            self.k += 1
            if self.peek() == '<': self.skip_generics(); continue
            p += '::' + self.next()
        return p

    # ---- expressions
    def expr(self, struct=True): return self.assign(struct)
    def assign(self, st):
        l = self.range(st)
        if self.opt('='):
            if l[0] == 'index': return ('assignIndex', l[1], l[2], self.assign(st))
            return ('assign', l, self.assign(st))
        for op in ('+=', '-=', '*='):
            if self.opt(op):
                return ('assign', l, ('bin', op[0], l, self.assign(st)))
        return l
    def range(self, st):
        ends = (')', ']', ',', '}', ';', '{', '=>')
        if self.opt('..'):
            if self.peek() in ends: return ('con', 'RangeFull', [])
            return ('con', 'RangeTo', [self.orr(st)])
        a = self.orr(st)
        if self.opt('..'):
            if self.peek() in ends: return ('con', 'RangeFrom', [a])
            return ('con', 'Range', [a, self.orr(st)])
        return a
    def orr(self, st):
        a = self.andd(st)
        while self.opt('||'): a = ('or', a, self.andd(st))
        return a
    def andd(self, st):
        a = self.cmp(st)
        while self.opt('&&'): a = ('and', a, self.cmp(st))
        return a
    def cmp(self, st):
        a = self.bitor(st)
        if self.peek() in ('==', '!=', '<', '>', '<=', '>='):
            op = self.next(); a = ('bin', op, a, self.bitor(st))
        return a
    def bitor(self, st):
        a = self.add(st)
        while self.peek() == '|': self.k += 1; a = ('bin', '|', a, self.add(st))
        return a
    def add(self, st):
        a = self.mul(st)
        while self.peek() in ('+', '-'): op = self.next(); a = ('bin', op, a, self.mul(st))
        return a
    def mul(self, st):
        a = self.cast(st)
        while self.peek() in ('*', '/'): op = self.next(); a = ('bin', op, a, self.cast(st))
        return a
    def cast(self, st):
        a = self.unary(st)
        while self.opt('as'): self.next()
        return a
    def unary(self, st):
        if self.opt('-'): return ('neg', self.unary(st))
        if self.opt('!'): return ('not', self.unary(st))
        if self.opt('*'): return ('deref', self.unary(st))
        if self.opt('&'):
            m = self.opt('mut'); e = self.unary(st)
            if m and e[0] == 'index': return ('refMutIndex', e[1], e[2])
            if not m and e == DEREF.get(self.fname.split('::')[0]): e = ('method', e, 'deref', [])
            return ('refMut' if m else 'ref', e)
        return self.postfix(self.primary(st), st)
    def args(self, close=')'):
        out = []
        while not self.opt(close):
            out.append(self.expr()); self.opt(',')
        return out
    def postfix(self, e, st):
        while True:
            if self.opt('.'):
                n = self.next()
                if self.peek() == '::': self.k += 1; self.skip_generics()
                if self.opt('('): e = ('method', e, n, self.args())
                else: e = ('field', e, n)
            elif self.opt('('):
                a = self.args()
                if e[0] == 'con': e = ('con', e[1], a)
                elif e[0] == 'path' and e[1].startswith('BoundedRange::'):
                    e = ('method', a[0], e[1].split('::')[1], a[1:])
                else: e = ('call', e, a)
            elif self.opt('['): 
                if e == DEREF.get(self.fname.split('::')[0]): e = ('method', e, 'deref', [])
                e = ('index', e, self.expr()); self.eat(']')
            else: return e
    def closure(self):
        ps = []
        if not self.opt('||'):
            self.eat('|')
            while not self.opt('|'):
                ps.append(self.pat())
                if self.opt(':'): self.skip_type((',', '|'))
                self.opt(',')
        return ('closure', ps, self.expr())
    def primary(self, st):
        x, kind = self.peek(), self.kind()
        if kind == 'num':
            k = self.seen.get('num', 0); self.seen['num'] = k + 1
            if k in I32.get(self.fname, ()): return ('call', ('path', 'i32'), [('byte', int(self.next()))])
            return ('byte' if self.fname in U8 else 'num', int(self.next()))
        if kind == 'chr':
            self.next(); c = x[2:-1]
            return ('byte', ESC[c[1]] if c[0] == '\\' else ord(c))
        if kind == 'str' and x[0] == 'b':
            assert '\\' not in x
            return ('call', ('path', 'bytes!'), [('byte', ord(c)) for c in self.next()[2:-1]])
        if kind == 'str': return ('str', self.string())
        if x in ('true', 'false'): self.next(); return ('bool', x == 'true')
        if x == '(':
            self.next(); es, comma = [], False
            while not self.opt(')'):
                es.append(self.expr())
                if self.opt(','): comma = True
            return es[0] if len(es) == 1 and not comma else ('tuple', es)
        if x == '{': return self.block()
        if x == 'unsafe': self.next(); return self.block()
        if x in ('|', '||'): return self.closure()
        if x == 'if': return self.iff()
        if x == 'match': return self.match()
        if x == 'loop': self.next(); return ('loop', self.block())
        if x == 'while':
            self.next(); c = self.expr(False); b = self.block()
            return ('loop', ('ite', c, b, ('brk',)))
        if x == 'for':
            self.next(); p = self.pat(); self.eat('in'); e = self.expr(False)
            return ('forIn', p, e, self.block())
        if x == 'return':
            self.next()
            return ('ret', UNIT if self.peek() in (';', '}', ',') else self.expr())
        if x == 'break': self.next(); return ('brk',)
        assert kind == 'id', (self.path, self.t[self.k])
        p = self.pathname()
        if self.peek() == '!' : return self.macro(p)
        if st and self.peek() == '{' and p.split('::')[-1][0].isupper():
            self.next(); fs = []
            while not self.opt('}'):
                n = self.next(); self.eat(':'); fs.append((n, self.expr())); self.opt(',')
            return ('struct', p + ' of ' + self.fname if p in self.local else p, fs)
        return self.name(p)
    def name(self, p):
        k = self.seen.get(p, 0); self.seen[p] = k + 1
        if p in CONSTS: return CONSTS[p]
        if p in EXAMPLES.get(self.path, ('', ()))[1]: p = EXAMPLES[self.path][0] + p
        if p.startswith('Self::'): p = self.fname.split('::')[0] + p[4:]
        for n in (k, None):
            if (self.fname, p, n) in INFERRED: return ('path', INFERRED[self.fname, p, n])
        if p.split('::')[-1][0].isupper() and not p.split('::')[-1].isupper(): return ('con', p, [])
        return ('path', p)
    def string(self):
        assert self.kind() == 'str' and self.peek()[0] == '"' and '\\' not in self.peek(), self.peek()
        return self.next()[1:-1]
    def macro(self, p):
        self.eat('!')
        if p in MACROS:
            s = self.k; self.skip_group()
            sub = P(MACROS[p].expand(self.t[s + 1:self.k - 1]), self.path, self.fname)
            sub.lifted, sub.local = self.lifted, self.local
            e = sub.expr()
            assert sub.k == len(sub.t)
            return e
        if p in ('panic', 'unreachable'): self.skip_group(); return ('panic',)
        if p == 'parse': return self.parse_macro()
        self.eat('(')
        if p == 'write':
            to = self.expr(); self.eat(',')
            parts = re.split(r'(\{:\?\})', self.string())
            args = self.args() if self.opt(',') else (self.eat(')') or [])
            out = [('con', 'Debug', [args.pop(0)]) if x == '{:?}' else ('str', x) for x in parts if x]
            assert not args
            return ('call', ('path', 'write!'), [to] + out)
        if p == 'println':
            parts = re.split(r'(\{\})', self.string())
            args = self.args() if self.opt(',') else (self.eat(')') or [])
            out = [('con', 'Display', [args.pop(0)]) if x == '{}' else ('str', x) for x in parts if x]
            assert not args
            return ('call', ('path', 'println!'), out)
        if p == 'assert':
            c = self.args()[0]
            return ('ite', c, UNIT, ('panic',))
        if p == 'debug_assert':
            c = self.args()[0]
            return ('ite', ('path', 'debug_assertions'), ('ite', c, UNIT, ('panic',)), UNIT)
        if p == 'try':
            e = self.args()[0]
            return ('mtch', e, [(('pcon', 'Ok', [('bind', False, 'val')]), None, ('path', 'val')),
                                (('pcon', 'Err', [('bind', False, 'err')]), None,
                                 ('ret', ('con', 'Err', [('call', ('path', '<E as From<E>>::from'), [('path', 'err')])])))])
        raise AssertionError(p)
    def parse_macro(self):
        """`parse!{input; ...}`"""
        self.eat('{'); source = self.expr(); self.eat(';'); stmts = []
        while not self.opt('}'):
            v = ('wild',)
            if self.opt('let'): v = ('bind', False, self.next()); self.eat('=')
            if self.opt('ret'): e = ('ret', self.expr())
            else:
                f = self.name(self.next()); self.eat('('); e = ('named', f, self.args())
            if self.peek() != '}': self.eat(';')
            stmts.append((v, e))
        def expand(source, stmts):
            v, e = stmts[0]
            a = ('method', source, 'ret', [e[1]]) if e[0] == 'ret' else ('call', e[1], [source] + e[2])
            if len(stmts) == 1: assert v == ('wild',); return a
            # the identifier `i` of the macro is not that of the user
            return ('method', a, 'bind', [('closure', [('bind', False, 'i@'), v], expand(('path', 'i@'), stmts[1:]))])
        return expand(source, stmts)
    def iff(self):
        self.eat('if')
        if self.opt('let'):
            p = self.pat(); self.eat('='); e = self.expr(False); t = self.block()
            return ('mtch', e, [(p, None, t), (('wild',), None, self.els())])
        c = self.expr(False); t = self.block()
        return ('ite', c, t, self.els())
    def els(self):
        if not self.opt('else'): return UNIT
        return self.iff() if self.peek() == 'if' else self.block()
    def match(self):
        self.eat('match'); e = self.expr(False); self.eat('{'); arms = []
        while not self.opt('}'):
            if self.kind() == 'chr' or self.fname == 'http::is_token' and self.kind() == 'num':
                # patterns which are bytes
                p, x, lit = ('bind', False, 'x@'), ('path', 'x@'), lambda: ('byte', self.primary(True)[1])
                a = lit()
                if self.opt('...'): g = ('and', ('bin', '<=', a, x), ('bin', '<=', x, lit()))
                else: g = ('bin', '==', x, a)
            else: p = self.pat(); g = None
            if self.opt('if'): g = self.expr()
            self.eat('=>'); arms.append((p, g, self.expr())); self.opt(',')
        return ('mtch', e, arms)
    def block(self):
        self.eat('{')
        stmts, last = [], UNIT
        while not self.opt('}'):
            if self.peek() == 'use':
                while self.next() != ';': pass
                continue
            if self.peek() in ('enum', 'struct'):
                if self.peek() == 'struct': self.local.add(self.peek(1))
                while self.peek() != '{': self.next()
                self.skip_group(); continue
            if self.peek() == 'impl': self.local_impl(); continue
            if self.opt('let'):
                p = self.pat()
                if self.opt(':'): self.skip_type(('=',))
                self.eat('='); e = self.expr(); self.eat(';')
                stmts.append(('let', p, e)); continue
            start = self.peek()
            if start in ('if', 'match', 'loop', 'while', 'for', 'unsafe', '{'):
                e = self.primary(True)
                if self.peek() in ('.', ) : e = self.postfix(e, True)
            else: e = self.expr()
            if self.opt(';'): stmts.append(('seq', e)); continue
            if self.peek() == '}': last = e; continue
            assert start in ('if', 'match', 'loop', 'while', 'for', 'unsafe', '{'), (self.path, self.t[self.k])
            stmts.append(('seq', e))
        for s in reversed(stmts):
            last = ('letIn', s[1], s[2], last) if s[0] == 'let' else ('seq', s[1], last)
        return last

    def local_impl(self):
        head = []
        self.eat('impl'); self.skip_generics()
        while self.peek() != '{':
            if self.peek() == 'where': break
            head.append(self.next())
        while self.peek() != '{': self.next()
        ty = head[head.index('for') + 1] if 'for' in head else head[0]
        self.eat('{')
        while not self.opt('}'):
            if self.peek() == 'type':
                while self.next() != ';': pass
            elif self.opt('#'): self.skip_group()
            else:
                old = self.fname, self.seen
                f = self.function(f'{ty} of {self.fname}::', None)
                self.fname, self.seen = old
                f.path = MACRO_FILE
                self.lifted.append(f)

    # ---- functions
    def function(self, prefix, cfg, name=None):
        a = self.line(); self.eat('fn'); n = self.next()
        name = name or prefix + n
        if self.peek() == '<': self.skip_generics()
        self.eat('('); ps, muts, bymut = [], [], False
        while not self.opt(')'):
            if self.peek() == '&':
                self.next()
                if self.kind() == 'life': self.next()
                if self.peek() == 'mut' and self.peek(1) == 'self': bymut = True
            if self.peek() == 'mut' and self.peek(1) == 'self': self.next()
            if self.opt('self'): ps.append(('bind', False, 'self'))
            elif self.kind(1) == 'op' and self.peek(1) == ':' or self.peek() in ('_', '(') \
                    or self.peek() == 'mut' and self.peek(2) == ':':
                p = self.pat(); self.eat(':'); self.skip_type((',', ')'))
                if p[0] == 'bind' and p[1]: muts.append(p[2]); p = ('bind', False, p[2])
                ps.append(p)
            else: self.skip_type((',', ')'))
            self.opt(',')
        if self.opt('->'): self.skip_type(('{', 'where', ';'))
        if self.opt('where'): self.skip_type(('{', ';'))
        if self.opt(';'): return None
        self.fname, self.seen = name, {}
        start = self.k
        body = self.block()
        b = self.t[self.k - 1][2]
        # a `Cell` of `self` is set
        words = [t[1] for t in self.t[start:self.k]]
        if any(words[k:k + 2] == ['.', 'set'] for k in range(len(words))): bymut = True
        for m in reversed(muts): body = ('letIn', ('bind', True, m), ('path', m), body)
        return Fn(name, ps, body, bymut, cfg, a, b, self.path)

def functions(path):
    """All functions of a file (without tests), with the impl or module they are in."""
    text = open(REPO + '/' + path).read()
    # documentation given by attributes
    text = re.sub(r'#\[cfg_attr\(feature = "verbose_error", doc = "(?:\\.|[^"\\])*"\)\]',
                  lambda m: '\n' * m.group().count('\n'), text)
    toks = lex(text)
    p, out = P(toks, path), []
    CONSTS.clear()
    if path.startswith('src/buffer/'):
        for n, v in re.findall(r'^const (\w+): \w+ = ([^;]*);', text, re.M): CONSTS[n] = P(lex(v)).expr()
        for ty, fl in re.findall(r'flags (\w+): \w+ \{(.*?)\n    \}', text, re.S):
            for n, v in re.findall(r'const (\w+)\s*= (\d+),', fl): CONSTS[n] = ('con', ty, [('num', int(v))])
    def items(prefix, cfg):
        attr = None
        while p.k < len(toks) and p.peek() != '}':
            x = p.peek()
            if x == '#':
                p.next(); p.opt('!'); s = p.k; p.skip_group()
                a = ''.join(t[1] for t in toks[s:p.k])
                if 'cfg(' in a: attr = a
                continue
            if x in ('pub',): p.next(); continue
            if x == 'fn':
                f = p.function(prefix, attr or cfg)
                out.extend(p.lifted); p.lifted.clear(); p.local.clear()
                if f: out.append(f)
                attr = None; continue
            if x in ('mod', 'impl', 'trait'):
                p.next(); head = []
                if p.peek() == '<' : p.skip_generics()
                while p.peek() not in ('{', ';'): head.append(p.next())
                if p.opt(';'): attr = None; continue
                p.next()
                if attr and 'test' in attr:
                    p.k -= 1; p.skip_group(); attr = None; continue
                if x == 'mod': items(head[0] + '::', attr or cfg)
                else:
                    h = head[:head.index('where')] if 'where' in head else head
                    if x == 'impl':
                        ty = h[h.index('for') + 1:] if 'for' in h else h
                        if ty[0] == '&': ty = ty[1:]
                        if ty[0][0] == "'": ty = ty[1:]
                        tr = h[0] + '@' if 'for' in h else ''
                        names = [t for t in ty if t[0] not in "'&["]
                        items((names[0] if names and ty[0] != '[' else 'slice') + '::', attr or cfg)
                    else:
                        items(h[0] + '::', attr or cfg)
                p.eat('}'); attr = None; continue
            # anything else: skip to the end of the item
            while True:
                y = p.peek()
                if y == ';': p.next(); break
                if y in '([': p.skip_group(); continue
                if y == '{': p.skip_group(); break
                p.next()
            attr = None
    if path.startswith('examples/'):
        EXAMPLES[path] = 'http::', set(re.findall(r'^fn (\w+)', text, re.M))
        items('http::', None)
    else: items('', None)
    return out

# ---- output
def q(s): return '"' + s.replace('\\', '\\\\').replace('"', '\\"') + '"'
OPS = {'+': '.add', '-': '.sub', '*': '.mul', '==': '.eq', '!=': '.ne', '<': '.lt', '<=': '.le', '>': '.gt', '>=': '.ge',
       '|': '.bitor'}
def lst(xs): return '[' + ', '.join(xs) + ']'
def showp(p):
    k = p[0]
    if k == 'wild': return '.wild'
    if k == 'bind': return f'.bind {str(p[1]).lower()} {q(p[2])}'
    if k == 'num': return f'.num {p[1]}'
    if k == 'ptuple': return f'.tuple {lst(map(showp, p[1]))}'
    if k == 'pcon': return f'.con {q(p[1])} {lst(map(showp, p[2]))}'
    raise AssertionError(p)
def par(s): return f'({s})' if ' ' in s else s
def show(e):
    k = e[0]
    S = lambda x: par(show(x))
    if k == 'num': return f'.num {e[1]}'
    if k == 'byte': return f'.byte {e[1]}'
    if k == 'bool': return f'.bool {str(e[1]).lower()}'
    if k == 'path': return f'.path {q(e[1])}'
    if k == 'str': return f'.str {q(e[1])}'
    if k == 'con': return f'.con {q(e[1])} {lst(map(show, e[2]))}'
    if k == 'tuple': return f'.tuple {lst(map(show, e[1]))}'
    if k == 'call': return f'.call {S(e[1])} {lst(map(show, e[2]))}'
    if k == 'method': return f'.method {S(e[1])} {q(e[2])} {lst(map(show, e[3]))}'
    if k == 'field': return f'.field {S(e[1])} {q(e[2])}'
    if k == 'index': return f'.index {S(e[1])} {S(e[2])}'
    if k in ('neg', 'not', 'deref', 'ref', 'refMut', 'ret', 'loop'): return f'.{k} {S(e[1])}'
    if k in ('or', 'and'): return f'.{k} {S(e[1])} {S(e[2])}'
    if k == 'bin': return f'.bin {OPS[e[1]]} {S(e[2])} {S(e[3])}'
    if k in ('assign', 'refMutIndex'): return f'.{k} {S(e[1])} {S(e[2])}'
    if k == 'assignIndex': return f'.assignIndex {S(e[1])} {S(e[2])} {S(e[3])}'
    if k == 'ite': return f'.ite {S(e[1])} {S(e[2])} {S(e[3])}'
    if k == 'mtch':
        arms = [f'.mk {par(showp(p))} {par(show(g)) if g else "(.bool true)"} {S(b)}' for p, g, b in e[2]]
        return f'.mtch {S(e[1])} {lst(arms)}'
    if k == 'letIn': return f'.letIn {par(showp(e[1]))} {S(e[2])} {S(e[3])}'
    if k == 'seq': return f'.seq {S(e[1])} {S(e[2])}'
    if k == 'closure': return f'.closure {lst(map(showp, e[1]))} {S(e[2])}'
    if k in ('brk', 'panic'): return '.' + k
    if k == 'forIn': return f'.forIn {par(showp(e[1]))} {S(e[2])} {S(e[3])}'
    if k == 'struct': return f'.strct {q(e[1])} {lst(q(n) for n, _ in e[2])} {lst(show(x) for _, x in e[2])}'
    raise AssertionError(e)

def wrap(s, width=112):
    """Break a long line at spaces outside of string literals."""
    out, cur = [], '  '
    for w in re.findall(r'(?:[^\s"]|"[^"]*")+', s):
        if len(cur) + len(w) + 1 > width: out.append(cur); cur = '    ' + w
        else: cur += ('' if cur.strip() == '' else ' ') + w
    out.append(cur)
    return '\n'.join(out)


FILES = [('src/input.rs', None), ('src/parse_result.rs', None), ('src/parse.rs', None), ('src/parsers.rs', None),
         ('src/ascii.rs', None), ('src/combinators/bounded.rs', None), ('src/combinators/mod.rs', None),
         ('src/buffer/data_source.rs', None), ('src/buffer/buffer.rs', None), ('src/buffer/mod.rs', None),
         ('src/buffer/slice.rs', None), ('src/buffer/stateful.rs', None),
         ('examples/http_parser.rs', None)]
# functions which are called by a longer path than their name
MODULE = {('src/input.rs', 'new'): 'input::new', ('src/parse_result.rs', 'new'): 'parse_result::new',
          **{('src/combinators/bounded.rs', n): 'bounded::' + n for n in ('many', 'skip_many', 'many_till')}}

# types and functions of the standard library and other crates
NO_METHODS = ['-', 'ByRef', 'Some', 'None', 'Ok', 'Err', 'InputMode', 'ParserState', 'SliceMut', 'ptr', 'Args']
NO_METHOD = [('usize', 'get'), ('usize', 'set')]
NO_FUNCTION = ['max', 'cmp::max', 'Cell::new', 'Vec::new', 'Vec::with_capacity', 'ptr::copy', 'ParserState::empty',
               '<E as From<E>>::from', 'write!', 'println!', 'i32', 'bytes!', 'env::args', 'File::open',
               'mem::replace', 'FromIterator::from_iter', '<V as From<V>>::from', '<V as From<E>>::from',
               '<T as ValueFrom<u8>>::value_from', '<T as ValueFrom<i8>>::value_from']

def lean_name(n):
    # the iterators in expansions
    n = re.sub(r'(\w+) of (\w+)::(\w+)::(\w+)', r'\2_\3_\4', n)
    return n.replace('::', '_')

def main():
    out = ["import Verif.Rust.Syntax", "", "/-", "Written by tools/rust.py from the text of /repo. Do not edit.", "-/", "",
           "namespace Chomp.Rust.Text", ""]
    table, bymuts = {True: [], False: []}, set()
    MACROS.update(read_macros(MACRO_FILE))
    for path, only in FILES:
        for f in functions(path):
            if only and f.name not in only: continue
            name = MODULE.get((path, f.name), f.name)
            ident = lean_name(name)
            cfgs = [True, False]
            if f.cfg and 'verbose_error' in f.cfg:
                v = 'not(' not in f.cfg
                cfgs = [v]; ident += '_verbose' if v else '_terse'
            at = f'{f.path}:{f.a}-{f.b}' if f.a != f.b else f'{f.path}:{f.a}'
            note = ', with the feature `verbose_error`' if ident.endswith('_verbose') else \
                   ', without the feature `verbose_error`' if ident.endswith('_terse') else ''
            m = re.match(r'(\w+) of (.*)::(\w+)$', name)
            if m: out.append(f'/-- `{m[3]}` of `{m[1]}`, {at}, as expanded in `{m[2]}`, {path}. -/')
            else: out.append(f'/-- `{name}`, {at}{note}. -/')
            out.append(f'def {ident} : Fn where')
            out.append(f'  params := {lst(map(showp, f.params))}')
            out.append('  body :=')
            out.append('\n'.join('  ' + l for l in wrap(show(f.body), 110).split('\n')))
            if f.bymut: out.append('  byMut := true'); bymuts.add(ident)
            out.append('')
            ty, _, n = name.rpartition('::')
            isty = ty and (ty[0].isupper() or ty == 'usize')
            # those without `self` are called by their path
            if path.startswith('src/buffer/') and ('bind', False, 'self') not in f.params: isty = False
            key = (ty, n) if isty else ('', name)
            for c in cfgs: table[c].append((key, ident))
    out.append('/-- The functions and methods, by the type they belong to (if any) and their name. `v`: with the feature')
    out.append('`verbose_error`. -/')
    out.append('def find (v : Bool) (ty name : String) : Option Fn :=')
    out.append('  if v then (verbose.lookup ty).bind (·.lookup name) else (terse.lookup ty).bind (·.lookup name)')
    tabs = []
    for c, n, d in ((True, 'verbose', 'with'), (False, 'terse', 'without')):
        tabs.append(f'/-- The functions {d} the feature `verbose_error`. -/')
        tabs.append(f'def {n} : List (String × List (String × Fn)) := [')
        tys = []
        for k, i in table[c]:
            if k[0] not in tys: tys.append(k[0])
        rows = []
        for t in tys:
            items = [f'({q(k[1])}, {i})' for k, i in table[c] if k[0] == t]
            line, lines = '', []
            for x in items:
                if len(line) + len(x) > 100: lines.append(line); line = ''
                line += (', ' if line else '') + x
            lines.append(line)
            rows.append(f'  ({q(t)}, [' + ',\n    '.join(lines) + '])')
        tabs.append(',\n'.join(rows) + ']')
        tabs.append('')
    k = len(out) - 4
    out[k:k] = tabs
    out.append('')
    both = [k for k, _ in table[True] if k in dict(table[False])]
    for k in both:
        i, j = dict(table[True])[k], dict(table[False])[k]
        n = lean_name((k[0] + '::' + k[1]).strip(':'))
        r = i if i == j else f'if v then {i} else {j}'
        out.append(f'theorem find_{n} (v : Bool) : find v {q(k[0])} {q(k[1])} = some ({r}) := by cases v <;> rfl')
    out.append('')
    for t in NO_METHODS:
        out.append(f'theorem find_no_{re.sub("[^A-Za-z]", "", t) or "type"} (v : Bool) (m : String) : find v {q(t)} m = none := by cases v <;> rfl')
    for t, m in NO_METHOD:
        out.append(f'theorem find_no_{t}_{m} (v : Bool) : find v {q(t)} {q(m)} = none := by cases v <;> rfl')
    for f in NO_FUNCTION:
        out.append(f'theorem find_no_{re.sub("[^A-Za-z]", "", f)} (v : Bool) : find v "" {q(f)} = none := by cases v <;> rfl')
    iters = [k[0] for k in both if ' of ' in k[0] and k[1] == 'next']
    for t in iters:
        out.append(f'theorem find_{lean_name(t + "::by_ref")} (v : Bool) : find v {q(t)} "by_ref" = none := by cases v <;> rfl')
    ids = [i for _, i in dict.fromkeys([x for c in (True, False) for x in table[c]])]
    muts = {i for i in ids if i in bymuts}
    out.append('')
    for i in ids:
        out.append(f'@[simp] theorem {i}_byMut : {i}.byMut = {"true" if i in muts else "false"} := rfl')
    for k in both:
        i, j = dict(table[True])[k], dict(table[False])[k]
        if i != j:
            out.append(f'@[simp] theorem {i}_{j}_byMut (v : Bool) : (if v then {i} else {j}).byMut = false := by cases v <;> rfl')
    out += ['', '-- to look up functions by simp', 'attribute [simp] ' + ' '.join(
        ['find_' + lean_name((k[0] + '::' + k[1]).strip(':')) for k in both]
        + ['find_' + lean_name(t + '::by_ref') for t in iters]
        + [f'find_no_{t}_{m}' for t, m in NO_METHOD]
        + [f'find_no_{re.sub("[^A-Za-z]", "", t) or "type"}' for t in NO_METHODS + NO_FUNCTION])]
    out += ['', 'end Chomp.Rust.Text']
    open(OUT, 'w').write('\n'.join(out) + '\n')

if __name__ == '__main__':
    main()
