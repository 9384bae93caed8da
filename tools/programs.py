#!/usr/bin/env python3
"""Transcribe the `parse!` and `parser!` blocks of the example programs and of the documentation, read as
text, to lean/Verif/Model/Programs.lean."""
import re

TOK = re.compile(r"""\s+|//[^\n]*|(?P<str>b?"[^"]*")|(?P<chr>b'(?:\\.|[^'\\])')|(?P<num>\d+\w*)|(?P<id>[A-Za-z_]\w*)"""
                 r"""|(?P<op>::|->|=>|>>|!=|==|<=|>=|&&|\|\||.)""")
OPS = {'>>': '.shr', '<': '.lt', '|': '.bar', '>': '.gt', '*': '.star', ';': '.semi', '=': '.eq', ':': '.colon',
       ',': '.comma', '@': '.at', '->': '.arrow'}
DEL = {'(': ('paren', ')'), '{': ('brace', '}'), '[': ('bracket', ']')}

def lex(s):
    out, k = [], 0
    while k < len(s):
        m = TOK.match(s, k); k = m.end()
        if m.lastgroup: out.append((m.lastgroup, m.group()))
    return out

def q(s): return '"' + s.replace('\\', '\\\\').replace('"', '\\"') + '"'

def trees(toks, k=0, close=None):
    out = []
    while k < len(toks):
        kind, x = toks[k]
        if x == close: return out, k + 1
        if x in DEL:
            inner, k = trees(toks, k + 1, DEL[x][1])
            out.append(f'.group .{DEL[x][0]} [{", ".join(inner)}]'); continue
        if x == 'let': t = '.kwLet'
        elif kind == 'id' and x != '_': t = f'.ident {q(x)}'
        elif x in OPS: t = OPS[x]
        else: t = f'.other {q(x)}'
        out.append(f'.tok {t}' if ' ' not in t else f'.tok ({t})'); k += 1
    assert close is None
    return out, k

def wrap(items, width=108):
    lines, cur = [], '  ['
    for n, x in enumerate(items):
        piece = x + (']' if n == len(items) - 1 else ',')
        if len(cur) + 1 + len(piece) > width and cur.strip() not in ('', '['):
            lines.append(cur); cur = '    ' + piece
        else:
            cur += ('' if cur.endswith('[') else ' ') + piece
    lines.append(cur)
    return '\n'.join(lines)

def block(path, nth):
    """The tokens of the nth block in a file, without the input, and its lines."""
    text = open('/repo/' + path).read()
    plain = re.sub(r'^(//[!/]) ?', lambda m: ' ' * len(m.group()), text, flags=re.M)
    if path.endswith('macros.rs'): plain = plain[:plain.index('mod test')]
    ms = [m for m in re.finditer(r'pars(e|er)!(\{)', plain)]
    m = ms[nth]
    k, depth = m.end(), 1
    while depth:
        depth += {'{': 1, '}': -1}.get(plain[k], 0); k += 1
    body = plain[m.end():k - 1]
    a, b = plain.count('\n', 0, m.start()) + 1, plain.count('\n', 0, k) + 1
    if m.group(1) == 'e':
        assert body.startswith('i;'); body = body[2:]
    return trees(lex(body))[0], f'{path}:{a}-{b}' if a != b else f'{path}:{a}'

PROGRAMS = [('endOfLine', 'the first alternative of `end_of_line`', 'examples/http_parser.rs', 0),
            ('httpVersion', '`http_version`', 'examples/http_parser.rs', 1),
            ('requestLine', '`request_line`', 'examples/http_parser.rs', 2),
            ('messageHeaderLine', '`message_header_line`', 'examples/http_parser.rs', 3),
            ('messageHeader', '`message_header`', 'examples/http_parser.rs', 4),
            ('request', '`request`', 'examples/http_parser.rs', 5),
            ('benchEndOfLine', 'the first alternative of `end_of_line`', 'benches/http_bench.rs', 0),
            ('benchHttpVersion', '`http_version`', 'benches/http_bench.rs', 1),
            ('benchRequestLine', '`request_line`', 'benches/http_bench.rs', 2),
            ('benchMessageHeaderLine', '`message_header_line`', 'benches/http_bench.rs', 3),
            ('benchMessageHeader', '`message_header`', 'benches/http_bench.rs', 4),
            ('benchRequest', '`request`', 'benches/http_bench.rs', 5),
            ('benchRequests', 'the parser of `multiple_requests`', 'benches/http_bench.rs', 6),
            ('name', '`name`', 'src/lib.rs', 0),
            ('missiles', '`f`', 'src/lib.rs', 2),
            ('nameTyped', '`r`', 'src/macros.rs', 1),
            ('parseIp', '`parse_ip`', 'src/macros.rs', 2),
            ('logSeverity', '`log_severity`', 'src/macros.rs', 3),
            ('double', '`my_parser`', 'src/macros.rs', 4),
            ('myParser', '`my_parser`', 'src/parse.rs', 0),
            ('readmeMissiles', '`f`', 'README.md', 0),
            ('readmeName', '`name`', 'README.md', 1)]

out = []
for n, what, path, nth in PROGRAMS:
    ts, where = block(path, nth)
    out.append(f'/-- {what[0].upper() + what[1:]}, {where}. -/\ndef {n} : List TT :=\n{wrap(ts)}\n')
open('/verif/lean/Verif/Model/Programs.lean', 'w').write(f"""import Verif.Model.Macro

/-
The blocks of the `parse!` and `parser!` invocations in the example program, in the benchmark and in the
documentation, as token trees. Written by tools/programs.py.
-/

namespace Chomp.Programs

open Chomp.Macro

{chr(10).join(out)}
end Chomp.Programs
""")
