#!/usr/bin/env python3
"""Transcribe the unit tests in /repo/src/macros.rs and the uses of `parse!` in /repo/tests/compile-fail,
read as text, to lean/Verif/Tests/Macro.lean."""
import glob
import re

SRC = '/repo/src/macros.rs'
text = open(SRC).read()
start = text.index('mod test')
tests = re.findall(r'#\[test\]\n    fn (\w+)\(\) \{\n(.*?)\n    \}\n', text[start:], re.S)

TOK = re.compile(r"""\s+|//[^\n]*|(?P<str>"[^"]*")|(?P<num>\d+\w*)|(?P<id>[A-Za-z_]\w*)|(?P<op>::|->|=>|>>|.)""", re.X)
OPS = {'>>': '.shr', '<': '.lt', '|': '.bar', '>': '.gt', '*': '.star', ';': '.semi', '=': '.eq', ':': '.colon',
       ',': '.comma', '@': '.at', '->': '.arrow'}
DEL = {'(': ('paren', ')'), '{': ('brace', '}'), '[': ('bracket', ']')}

def lex(s):
    out, k = [], 0
    while k < len(s):
        m = TOK.match(s, k); k = m.end()
        if m.lastgroup: out.append((m.lastgroup, m.group()))
    return out

def q(s): return '"' + s.replace('\\', '\\\\').replace('"', '\\"') + '"'

def trees(toks, k=0, close=None):
    out = []
    while k < len(toks):
        kind, x = toks[k]
        if x == close: return out, k + 1
        if x in DEL:
            inner, k = trees(toks, k + 1, DEL[x][1])
            out.append(f'.group .{DEL[x][0]} [{", ".join(inner)}]'); continue
        if x == 'let': t = '.kwLet'
        elif kind == 'id' and x != '_': t = f'.ident {q(x)}'
        elif x in OPS: t = OPS[x]
        else: t = f'.other {q(x)}'
        out.append(f'.tok {t}' if ' ' not in t else f'.tok ({t})'); k += 1
    assert close is None
    return out, k

def lean(s): return '[' + ', '.join(trees(lex(s))[0]) + ']'

def line(pos): return text.count('\n', 0, pos) + 1

def value(s):
    s = s.strip()
    if s.startswith('('):
        parts = [p.strip() for p in s[1:-1].split(',') if p.strip()]
        return '.unit' if not parts else '(.pair %s)' % ' '.join(value(p) for p in parts)
    if s.startswith('"'): return f'(.str {q(s)})'
    return '(.int %d)' % int(re.match(r'\d+', s).group())

out, n, skipped = [], 0, []
for name, body in tests:
    pos = text.index(f'fn {name}() {{', start)
    a = line(pos) - 1
    b = a + 2 + body.count('\n') + 1
    fns = []
    for f, ps, fb in re.findall(r'fn (\w+)(?:<\w+>)?\(i: Input(.*?)\) -> .*? \{\n(.*?)\n        \}', body, re.S):
        params = re.findall(r'(\w+):', ps)
        m = re.search(r'assert_eq!\(i(?:\.0)?, (?:Input\()?(\d+)\)', fb)
        expect = f'(some {m.group(1)})' if m else 'none'
        k, at, val = re.search(r'Data::(Value|Error)\((i\.0|\d+), (.*)\)$', fb.strip(), re.S).groups()
        at = 'none' if at == 'i.0' else f'(some {at})'
        fns.append(f'    ({q(f)}, ⟨[{", ".join(q(p) for p in params)}], {expect}, {at}, '
                   f'{"true" if k == "Value" else "false"}, {lean(val)}⟩)')
    asserts = dict(re.findall(r'assert_eq!\((r\d*),\s*(Data::\w+\(.*\)|\d+)\);', body))
    runs = []
    for m in re.finditer(r'let (r\d*)\b[^=]*?= parse!([{(])', body):
        k, depth = m.end(), 1
        while depth:
            depth += {'(': 1, '{': 1, ')': -1, '}': -1}.get(body[k], 0); k += 1
        runs.append((m.group(1), body[m.end():k - 1]))
    todo = []
    for r, ts in runs:
        e = re.match(r'Data::(Value|Error)\((\d+), (.*)\)$', asserts[r])
        if not e: skipped.append(name); continue
        kind, at, val = e.groups()
        val = value(val)
        want = f'.data ⟨.default, [{at}]⟩ {val}' if kind == 'Value' else f'.error [{at}] {val}'
        todo.append((ts, want))
    if not todo: continue
    out.append(f'/-! `{name}`, src/macros.rs:{a}-{b} -/\n')
    if fns:
        out.append(f'def {name}_fns : Fns := [\n' + ',\n'.join(fns) + ']\n')
    for ts, want in todo:
        n += 1
        out.append(f'example : result {name + "_fns" if fns else "[]"} {lean(ts)} =\n    some ({want}) := by\n  rfl\n')
for path in sorted(glob.glob('/repo/tests/compile-fail/macros_*.rs')):
    src = open(path).read()
    m = re.search(r'parse!\{i;(.*?)\n    \}\n', src, re.S)
    a, b = (src.count('\n', 0, k) + 1 for k in (m.start(), m.end() - 1))
    out.append(f'/-! tests/compile-fail/{path.split("/")[-1]}:{a}-{b}, which must not compile -/\n')
    out.append(f'example {{R : Fragments}} (L : R.Lawful) (n : Nat) :\n    expand tables R n (.block {lean(m.group(1))}) = none :=\n'
               '  (Props.C61_last_statement L (.inl rfl) (Free.not_mem.mpr (by simp)) n).1\n')
doc = 'Not among them: ' + ', '.join(f'`{s}`' for s in skipped) + ', where nothing is parsed.' if skipped else ''
open('/verif/lean/Verif/Tests/Macro.lean', 'w').write(f"""import Verif.Tests.MacroRun
import Verif.Props.Macro

/-
The tests in /repo/src/macros.rs and of macros in /repo/tests/compile-fail, generated by tools/macro_tests.py.
{doc}
-/

namespace Chomp.Tests.Macro

open Chomp.Macro

""" + '\n'.join(out) + '\nend Chomp.Tests.Macro\n')
print(len(tests), 'tests', n, 'assertions, skipped', skipped)
