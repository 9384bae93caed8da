#!/usr/bin/env python3
"""Write lean/Verif/Rust/MacroText.lean: the rules of parse!, parser!, __parse_internal! and __parse_internal_or! of
/repo/src/macros.rs as data, which lean/Verif/Rust/MacroRules.lean runs.

Only the notation is changed: tokens are named as in lean/Verif/Model/Macro.lean, `$x:k` is `.var`, `$(...)` is `.rep`,
or `.reps` for `$(,)*`, and an invocation `m!{...}` on the right hand side is `.call`."""
import re, os

SRC = os.environ.get('REPO', '/repo') + '/src/macros.rs'
OUT = os.environ.get('OUT') or os.path.join(os.path.dirname(__file__), '..', 'lean', 'Verif', 'Rust', 'MacroText.lean')
TOK = re.compile(r"""\s+|//[^\n]*|(?P<id>\$?[A-Za-z_]\w*)|(?P<op>::|->|=>|>>|<<|==|!=|<=|>=|&&|\|\||\.\.|.)""", re.S)
NAMED = {'>>': 'shr', '<': 'lt', '|': 'bar', '>': 'gt', '*': 'star', ';': 'semi', '=': 'eq', ':': 'colon', ',': 'comma',
         '@': 'at', '->': 'arrow', 'let': 'kwLet'}
DELIM = {'(': ('paren', ')'), '{': ('brace', '}'), '[': ('bracket', ']')}

def lex(s, line):
    out, k = [], 0
    while k < len(s):
        m = TOK.match(s, k)
        if m.lastgroup: out.append((m.group(), line))
        line += m.group().count('\n'); k = m.end()
    return out

def trees(ts, k, close):
    """Token trees from k up to the delimiter `close`."""
    out = []
    while ts[k][0] != close:
        t, line = ts[k]
        if t in DELIM:
            d, c = DELIM[t]
            inner, k = trees(ts, k + 1, c)
            out.append(('group', d, inner, line))
        else:
            out.append(('tok', t, line)); k += 1
    return out, k + 1

def tok(t):
    if t in NAMED: return '.' + NAMED[t]
    if re.match(r'[A-Za-z]|_\w', t): return '.ident "%s"' % t
    return '.other "%s"' % t

def rep(ts, k):
    """`$( body ) sep op` at k (after `$`)."""
    body = ts[k][2]
    k += 1
    sep = None
    if ts[k][1] not in ('*', '+'): sep = ts[k][1]; k += 1
    return body, sep, ts[k][1], k + 1

def opt(sep): return 'none' if sep is None else '(some %s)' % tok(sep)

def pattern(ts):
    out, k = [], 0
    while k < len(ts):
        t = ts[k]
        if t[0] == 'group':
            out.append('.group .%s [%s]' % (t[1], ', '.join(pattern(t[2])))); k += 1
        elif t[1] == '$':
            body, sep, op, k = rep(ts, k + 1)
            if len(body) == 3:
                assert body[1][1] == ':'
                out.append('.rep "%s" .%s %s %s' % (body[0][1][1:], body[2][1], opt(sep), 'true' if op == '+' else 'false'))
            else:
                assert len(body) == 1 and sep is None and op == '*'
                out.append('.reps %s' % tok(body[0][1]))
        elif t[1][0] == '$':
            assert ts[k + 1][1] == ':'
            out.append('.var "%s" .%s' % (t[1][1:], ts[k + 2][1])); k += 3
        else:
            out.append('.tok (%s)' % tok(t[1]) if ' ' in tok(t[1]) else '.tok %s' % tok(t[1])); k += 1
    return out

def template(ts):
    out, k = [], 0
    while k < len(ts):
        t = ts[k]
        if t[0] == 'group':
            out.append('.group .%s [%s]' % (t[1], ', '.join(template(t[2])))); k += 1
        elif t[1] == '$':
            body, sep, op, k = rep(ts, k + 1)
            assert len(body) == 1
            out.append('.rep "%s" %s' % (body[0][1][1:], opt(sep)))
        elif t[1] == '$crate':
            out.append('.tok (.other "$crate")'); k += 1
        elif t[1][0] == '$':
            out.append('.var "%s"' % t[1][1:]); k += 1
        elif k + 2 < len(ts) and ts[k + 1][0] == 'tok' and ts[k + 1][1] == '!' and ts[k + 2][0] == 'group':
            out.append('.call "%s" [%s]' % (t[1], ', '.join(template(ts[k + 2][2])))); k += 3
        else:
            out.append('.tok (%s)' % tok(t[1]) if ' ' in tok(t[1]) else '.tok %s' % tok(t[1])); k += 1
    return out

def wrap(s, ind):
    out, line = [], ind
    for w in re.findall(r'\S+', s):
        if len(line) + 1 + len(w) > 120 and line.strip():
            out.append(line); line = ind + '  ' + w
        else: line = line + (' ' if line.strip() else '') + w
    return '\n'.join(out + [line])

def macro(src, name):
    m = re.search(r'^macro_rules! %s \{' % name, src, re.M)
    first = src.count('\n', 0, m.start()) + 1
    ts = lex(src[m.end() - 1:], src.count('\n', 0, m.end() - 1) + 1)
    body, _ = trees(ts, 1, '}')
    arms, k = [], 0
    while k < len(body):
        p, arrow, t = body[k:k + 3]
        assert arrow[1] == '=>'
        arms.append((p[3], pattern(p[2]), template(t[2])))
        k += 3
        if k < len(body):
            assert body[k][1] == ';'; k += 1
    return first, arms

def main():
    src = open(SRC).read()
    out = ['import Verif.Rust.MacroSyntax', '',
           '/-', 'The rules of the macros in /repo/src/macros.rs. Written by tools/macros.py; do not edit.', '-/', '',
           'namespace Chomp.MacroRules.Text', '']
    for name, lean in [('parse', 'parse'), ('__parse_internal_or', 'parseInternalOr'),
                       ('__parse_internal', 'parseInternal'), ('parser', 'parser')]:
        first, arms = macro(src, name)
        out.append('/-- `%s!`, src/macros.rs:%d. -/' % (name, first))
        out.append('def %s : List Arm := [' % lean)
        for n, (line, p, t) in enumerate(arms):
            out.append('  /- %d -/' % line)
            out.append(wrap('⟨[%s],' % ', '.join(p), '  '))
            out.append(wrap('[%s]⟩%s' % (', '.join(t), ',' if n + 1 < len(arms) else ']'), '    '))
        out.append('')
    out += ['/-- The macros by name. -/', 'def find : String → Option (List Arm)',
            '  | "parse" => some parse', '  | "__parse_internal_or" => some parseInternalOr',
            '  | "__parse_internal" => some parseInternal', '  | "parser" => some parser', '  | _ => none', '',
            'end Chomp.MacroRules.Text']
    open(OUT, 'w').write('\n'.join(out) + '\n')

main()
