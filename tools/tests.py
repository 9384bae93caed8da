#!/usr/bin/env python3
"""Transcribe the unit tests of the crate to the model: /repo/src is read as text, lean/Verif/Tests is
written. Only assertions about the result of one call are understood; the others, which are listed, are
transcribed by hand in lean/Verif/Tests/ByHand.lean and Source.lean.
"""
import re, sys

TOK = re.compile(r"""\s+|//[^\n]*|(?P<bstr>b"(?:[^"\\]|\\.)*")|(?P<str>"(?:[^"\\]|\\.)*")|(?P<byte>b'(?:[^'\\]|\\.)')
|(?P<num>\d+(?:[ui]\d+)?)|(?P<id>[A-Za-z_][A-Za-z_0-9]*!?)|(?P<op>::|\.\.|==|!=|->|=>|[-+*/%&|<>=.,;:(){}\[\]#!])""", re.X)

class Skip(Exception): pass

def lex(s):
    out, k = [], 0
    while k < len(s):
        m = TOK.match(s, k)
        if not m: raise Skip(f'lex {s[k:k+20]!r}')
        k = m.end()
        if m.lastgroup: out.append((m.lastgroup, m.group()))
    return out

class P:
    def __init__(self, toks): self.t, self.k = toks, 0
    def peek(self, d=0): return self.t[self.k + d][1] if self.k + d < len(self.t) else None
    def kind(self): return self.t[self.k][0] if self.k < len(self.t) else None
    def next(self):
        x = self.peek(); self.k += 1; return x
    def eat(self, x):
        if self.peek() != x: raise Skip(f'expected {x} at {self.peek()}')
        self.k += 1
    def turbofish(self):
        if self.peek() == '::' and self.peek(1) == '<':
            self.k += 2; d = 1; ty = []
            while d:
                x = self.next()
                if x == '<': d += 1
                if x == '>': d -= 1
                if d: ty.append(x)
            return ''.join(ty)
        return None
    # ranges, closures, and postfix expressions
    def expr(self):
        if self.peek() == '..':
            self.next()
            if self.kind() == 'num': return ('range', None, int(self.next()))
            return ('range', None, None)
        if self.peek() == '|':
            self.next(); args = []
            while self.peek() != '|':
                args.append(self.next())
            self.next()
            return ('fn', args, self.expr())
        if self.peek() == '&': self.next()
        if self.peek() == '(':
            self.next(); xs = []
            while self.peek() != ')':
                xs.append(self.expr())
                if self.peek() == ',': self.next()
            self.next()
            e = ('tuple', xs)
        elif self.kind() == 'bstr': e = ('bytes', self.next()[2:-1])
        elif self.kind() == 'str': e = ('str', self.next()[1:-1])
        elif self.kind() == 'byte': e = ('byte', self.next()[2:-1])
        elif self.kind() == 'num':
            n = int(re.match(r'\d+', self.next()).group())
            if self.peek() == '..':
                self.next()
                if self.kind() == 'num': return ('range', n, int(self.next()))
                return ('range', n, None)
            e = ('num', n)
        elif self.peek() == 'vec!':
            self.next(); self.eat('['); xs = []
            while self.peek() != ']':
                xs.append(self.expr())
                if self.peek() == ',': self.next()
            self.next()
            e = ('vec', xs)
        elif self.kind() == 'id':
            n = self.next()
            while self.peek() == '::' and self.peek(1) != '<':
                self.next(); n += '::' + self.next()
            ty = self.turbofish()
            if self.peek() == '(':
                e = ('call', n, self.args())
            else: e = ('var', n)
        else: raise Skip(f'expr at {self.peek()}')
        while True:
            if self.peek() == '.':
                self.next(); n = self.next(); ty = self.turbofish()
                e = ('method', n, ty, e, self.args())
            elif self.peek() == '[' and self.peek(1) == '..':
                self.k += 2; self.eat(']')
            elif self.peek() in ('==', '!='):
                op = self.next(); e = ('op', op, e, self.expr())
            else: return e
    def args(self):
        self.eat('('); xs = []
        while self.peek() != ')':
            xs.append(self.expr())
            if self.peek() == ',': self.next()
        self.next()
        return xs

# ---- Lean ----
MODE = {'DEFAULT': '.default', 'END_OF_INPUT': '.endOfInput'}

def val(e):
    k = e[0]
    if k == 'bytes': return f'(bytes "{e[1]}")'
    if k == 'str': return f'"{e[1]}"'
    if k == 'byte': return f"(byte '{e[1]}')"
    if k == 'num': return str(e[1])
    if k == 'vec': return '[' + ', '.join(map(val, e[1])) + ']'
    if k == 'tuple': return '()' if not e[1] else '(' + ', '.join(map(val, e[1])) + ')'
    if k == 'call' and e[1] == 'new': return f'⟨{MODE[e[2][0][1]]}, {val(e[2][1])}⟩'
    if k == 'call' and e[1] == 'err::expected': return f'(Err.expected v {val(e[2][0])})'
    if k == 'call' and e[1] == 'err::unexpected': return '(Err.unexpected v)'
    raise Skip(f'value {e}')

def rng(e):
    if e[0] == 'num': return f'(.exactly {e[1]})'
    if e[0] != 'range': raise Skip('range')
    a, b = e[1:]
    if a is None and b is None: return '.full'
    if a is None: return f'(.to {b})'
    if b is None: return f'(.from_ {a})'
    return f'(.range {a} {b})'

def fun(e):
    if e[0] == 'fn' and e[1] == ['_'] and e[2] == ('var', 'true'): return '(fun _ => true)'
    if e[0] == 'fn' and e[1] == ['_']: return f'(fun _ => {val(e[2])})'
    if e[0] == 'fn' and e[1] == ['c'] and e[2][0] == 'op' and e[2][1] in ('!=', '==') and e[2][2] == ('var', 'c'):
        return f'(fun c => c {e[2][1]} {val(e[2][3])})'
    raise Skip(f'function {e}')

def parser(e, bounded):
    """the parser which the function e is"""
    if e == ('var', 'any'): return 'Parsers.any'
    if e[0] == 'fn' and e[1] == ['i']: return body(e[2], bounded)
    raise Skip(f'parser {e}')

def body(e, bounded):
    """the parser given by an expression using the input i once, on the left"""
    if e[0] == 'method':
        _, n, ty, recv, args = e
        if recv == ('var', 'i') and n == 'err':
            t = {None: '', '(),_': ' (T := Unit)'}[ty]
            return f'(Parser.err{t} {val(args[0])})'
        p = body(recv, bounded)
        if n == 'map_err': return f'(Parser.mapErr {p} {fun(args[0])})'
        if n == 'map' and args == [('var', 'ToOwned::to_owned')]: return p
        if n == 'then': return f'(Parser.andThen id {p} {parser(args[0], bounded)})'
        raise Skip(f'method {n}')
    if e[0] == 'call':
        if e[2][0] != ('var', 'i'): raise Skip('input')
        return call(e[1], e[2][1:], bounded)
    raise Skip(f'body {e}')

ITEM = ['_']
ENV = {}

def call(f, args, bounded):
    """f with the arguments behind the input"""
    q = lambda e: parser(e, bounded)
    if f == 'token': return f'(Parsers.token v {val(args[0])})'
    if f == 'string': return f'(Parsers.string v {val(args[0])})'
    if f == 'take': return f'(Parsers.take {val(args[0])})'
    if f == 'take_while': return f'(Parsers.takeWhile {fun(args[0])})'
    if f == 'take_while1': return f'(Parsers.takeWhile1 v {fun(args[0])})'
    if f == 'take_remainder': return 'Parsers.takeRemainder'
    if f == 'peek_next': return 'Parsers.peekNext'
    if f == 'any': return 'Parsers.any'
    if bounded:
        if f == 'many': return f'(Bounded.many {rng(args[0])} (Collect.vec {ITEM[0]}) {q(args[1])})'
        if f == 'skip_many': return f'(Bounded.skipMany {rng(args[0])} {q(args[1])})'
        if f == 'many_till': return f'(Bounded.manyTill {rng(args[0])} (Collect.vec {ITEM[0]}) {q(args[1])} {q(args[2])})'
    else:
        if f == 'option': return f'(Comb.option {q(args[0])} {val(args[1])})'
        if f == 'or': return f'(Comb.or {q(args[0])} {q(args[1])})'
        if f == 'many': return f'(Comb.many (Collect.vec {ITEM[0]}) {q(args[0])})'
        if f == 'many1': return f'(Comb.many1 (Collect.vec {ITEM[0]}) {q(args[0])})'
        if f == 'count': return f'(Comb.count {val(args[0])} (Collect.vec {ITEM[0]}) {q(args[1])})'
        if f == 'skip_many1': return f'(Comb.skipMany1 {q(args[0])})'
        if f == 'many_till': return f'(Comb.manyTill (Collect.vec {ITEM[0]}) {q(args[0])} {q(args[1])})'
        if f == 'matched_by': return f'(Comb.matchedBy {q(args[0])})'
        if f == 'look_ahead': return f'(Comb.lookAhead {q(args[0])})'
        if f in ('sep_by', 'sep_by1'):
            return f'(Comb.{"sepBy" if f == "sep_by" else "sepBy1"} id (Collect.vec {ITEM[0]}) {q(args[0])} {q(args[1])})'
    raise Skip(f'call {f}')

def run(e, bounded):
    if e[0] == 'call' and e[2][0][0] == 'var' and e[2][0][1] in ENV: e = (e[0], e[1], [ENV[e[2][0][1]]] + e[2][1:])
    if e[0] != 'call' or e[2][0][0] != 'call' or e[2][0][1] != 'new': raise Skip('not a call')
    return call(e[1], e[2][1:], bounded) + ' ' + val(e[2][0]) + ' ()'

def result(e):
    n, a = e[1], e[2]
    if n == 'State::Data': return f'.ok (.data {val(a[0])} {val(a[1])}, ())'
    if n == 'State::Error': return f'.ok (.error {val(a[0])} {val(a[1])}, ())'
    if n == 'State::Incomplete': return f'.ok (.incomplete {val(a[0])}, ())'
    raise Skip('result')

def statements(text):
    """split at `;` outside of brackets and literals"""
    out, cur, d = [], [], 0
    for t in lex(text):
        if t[1] in '([{': d += 1
        if t[1] in ')]}': d -= 1
        if t[1] == ';' and d == 0: out.append(cur); cur = []
        else: cur.append(t)
    return out

def tests(path, bounded):
    src = open('/repo/src/' + path).read()
    lines = src.split('\n')
    k = next(i for i, l in enumerate(lines) if 'cfg(test)' in l)
    res, skipped = [], []
    i = k
    while i < len(lines):
        if lines[i].strip() == '#[test]':
            panics = False
            i += 1
            if lines[i].strip() == '#[should_panic]': panics = True; i += 1
            name = re.match(r'\s*fn (\w+)', lines[i]).group(1)
            start = i + 1
            e = i
            while lines[e] != '    }': e += 1
            one, last = [], None
            ENV.clear()
            try:
                for st in statements('\n'.join(lines[i + 1:e])):
                    p = P(st)
                    if p.peek() == 'let':
                        ty = ''
                        while p.peek() != '=': ty += p.next()
                        p.next()
                        ITEM[0] = {'u8': 'UInt8', '()': 'Unit'}.get((re.findall(r'Vec<([^>]*)>', ty) or ['_'])[0], '_')
                        last = p.expr()
                        name_ = re.match(r'let(\w*)', ty).group(1)
                        if last[0] == 'call' and last[1] == 'new': ENV[name_] = last
                        if panics: one.append((run(last, bounded), '.panic'))
                    elif panics and one: continue
                    elif p.peek() == 'assert_eq!':
                        p.next(); a = p.args()
                        x = a[0]
                        if x == ('var', 'r'): lhs = last
                        elif x[0] == 'method' and x[1] == 'into_inner':
                            lhs = last if x[3] == ('var', 'r') else x[3]
                        else: raise Skip(f'assert {x}')
                        if lhs[0] == 'method' and lhs[1] == 'into_inner': lhs = lhs[3]
                        one.append((run(lhs, bounded), '.panic' if panics else result(a[1])))
                        ITEM[0] = '_'
                    elif p.peek() is not None: raise Skip('statement')
            except Skip as s:
                skipped.append((name, start, len(one), str(s)[:100]))
            if one: res.append((name, start, e + 1, one))
            i = e
        i += 1
    return res, skipped

def lean(mod, path, bounded, imports='import Verif.Tests.Run'):
    res, skipped = tests(path, bounded)
    o = [imports, '', '/-', f'The tests in /repo/src/{path}, generated by tools/tests.py.']
    if skipped:
        o.append('Not understood, and done by hand elsewhere: ' + ', '.join(f'the rest of `{n}`' if c else f'`{n}`' for n, _, c, _ in skipped) + '.')
    o += ['-/', '', f'namespace Chomp.Tests.{mod}', '', 'open Chomp.Spec', '']
    n = 0
    for name, a, b, one in res:
        o.append(f'/-! `{name}`, src/{path}:{a}-{b} -/'); o.append('')
        for l, r in one:
            n += 1
            s = f'example (v : Bool) : {l} =\n    {r} := by\n  cases v <;> evaluate'
            if ' v ' not in l + r and ' v)' not in l + r: s = f'example : {l} =\n    {r} := by\n  evaluate'
            if '(T := Unit)' in s or 'Parser.err' in s: pass
            o += [s, '']
    o += [f'end Chomp.Tests.{mod}', '']
    open(f'/verif/lean/Verif/Tests/{mod}.lean', 'w').write('\n'.join(o))
    print(mod, len(res), 'tests', n, 'assertions; skipped', skipped)

lean('Parsers', 'parsers.rs', False)
lean('Combinators', 'combinators/mod.rs', False)
lean('Bounded', 'combinators/bounded.rs', True)
