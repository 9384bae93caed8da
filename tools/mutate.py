#!/usr/bin/env python3
"""Apply an edit to the model in a scratch copy, rebuild, and find the theorems which no longer prove.

usage: mutate.py MUTANTS.json RESULTS.jsonl [id ...]

A mutant is {"id", "file", "old", "new", "nth" (optional), "definition", "edit", "claim", "breaks": [...]}.
Wherever an error is reported, the proof of the declaration is replaced by `sorry` and the build is
repeated. What fails then is what depends on `sorryAx`. Nothing is ever written below /verif except the
results file given.

A failing proof does not show that the statement has become false. So a mutant may have a field "refute":
a proof of `False` from property theorems, all of which are stated (but not proved) in the scratch copy.

If the file of a mutant is below src, the edit is made in a copy of /repo, from which tools/rust.py writes
Verif/Rust/Text.lean anew (C109-C111), or tools/macros.py Verif/Rust/MacroText.lean (C112).
"""
import json, os, re, subprocess, sys, shutil

BASE = os.environ.get('BASE', '/verif/lean')
WORK = '/tmp/mut/work'
START = re.compile(r'^(@\[.*\]\s*)?(private |protected |noncomputable )*(theorem|lemma|example|instance|def|abbrev|structure|inductive|class)\b')

def run(cmd, **k):
    return subprocess.run(cmd, shell=True, cwd=WORK, stdout=subprocess.PIPE, stderr=subprocess.STDOUT, text=True, **k).stdout

def reset():
    subprocess.run(f'rm -rf {WORK} && mkdir -p {os.path.dirname(WORK)} && cp -a {BASE} {WORK}', shell=True, check=True)

def decls(lines):
    """(start, end) line indices of the declarations"""
    out = []
    starts = [k for k, l in enumerate(lines) if START.match(l)]
    for s in starts:
        e = s + 1
        while e < len(lines) and (lines[e] == '' or lines[e][0].isspace() or re.match(r'(termination_by|decreasing_by|\||\))', lines[e])):
            e += 1
        out.append((s, e))
    return out

def kind(l):
    m = START.match(l)
    return m.group(3)

def name(l):
    m = re.match(r'.*?\b(theorem|lemma|def|instance|abbrev)\s+(\S+)', l)
    return m.group(2) if m else None

def body_start(text):
    """offset of the body of a theorem: depth-0 `:=`, `where` or leading bar"""
    depth = 0
    k = 0
    while k < len(text):
        c = text[k]
        if text.startswith('--', k):
            k = text.find('\n', k)
            if k < 0: break
            continue
        if text.startswith('/-', k):
            k = text.find('-/', k) + 2
            continue
        if c == '"':
            k += 1
            while text[k] != '"':
                k += 2 if text[k] == '\\' else 1
        elif c in '([{⟨': depth += 1
        elif c in ')]}⟩': depth -= 1
        elif depth == 0:
            if text.startswith(':=', k): return k
            m = re.compile(r'\n  \| ').match(text, k)
            # a bar of the statement's own `match` is indented further
            if m: return k
            if re.compile(r'\bwhere\s*\n').match(text, k) and text[k-1].isspace(): return k
        k += 1
    return None

def one(m, log):
    reset()
    path = f'{WORK}/{m["file"]}'
    if m['file'].startswith(('src/', 'examples/')):
        subprocess.run('rm -rf /tmp/mut/repo && cp -a /repo /tmp/mut/repo', shell=True, check=True)
        path = f'/tmp/mut/repo/{m["file"]}'
    t = open(path).read()
    cnt = t.count(m['old'])
    nth = m.get('nth')
    if nth is None:
        assert cnt == 1, f'{m["id"]}: {cnt} occurrences'
        t = t.replace(m['old'], m['new'])
    else:
        assert cnt > nth
        pos = -1
        for _ in range(nth + 1): pos = t.find(m['old'], pos + 1)
        t = t[:pos] + m['new'] + t[pos + len(m['old']):]
    open(path, 'w').write(t)
    if m['file'].startswith(('src/', 'examples/')):
        tool, text = ('macros', 'MacroText') if m['file'] == 'src/macros.rs' else ('rust', 'Text')
        subprocess.run(f'python3 /verif/tools/{tool}.py', shell=True, check=True,
                       env=dict(os.environ, REPO='/tmp/mut/repo', OUT=f'{WORK}/Verif/Rust/{text}.lean'))
    sorried, removed, examples, other = set(), set(), set(), []
    for it in range(40):
        out = run('timeout 3000 lake build 2>&1')
        errs = set((f, int(l)) for f, l in re.findall(r'error: (Verif/\S+?\.lean):(\d+):\d+', out))
        if not errs:
            if 'Build completed' in out or 'error' not in out: break
            log['status'] = 'build: ' + out[-800:]
            return
        byfile = {}
        for f, l in errs: byfile.setdefault(f, set()).add(l)
        progress = False
        for f, ls in byfile.items():
            if f == m['file'][0:] and 'Model' in f:
                pass
            lines = open(f'{WORK}/{f}').read().split('\n')
            ds = decls(lines)
            todo = {}
            for l in ls:
                # an error at `set_option ... in` belongs to the declaration which follows
                while l <= len(lines) and re.match(r'set_option .* in$|/--', lines[l - 1]): l += 1
                for s, e in ds:
                    if s <= l - 1 < e: todo[(s, e)] = 1
                if not any(s <= l - 1 < e for s, e in ds): other.append(f'{f}:{l} outside')
            for (s, e) in sorted(todo, reverse=True):
                n = name(lines[s]) or f'{f}:{s+1}'
                kd = kind(lines[s])
                text = '\n'.join(lines[s:e])
                key = f'{f}:{n}' if kd != 'example' else f'{f}: example {" ".join(text.split())[:60]}'
                # keep modifiers like `set_option ... in` and doc comments in front
                if kd == 'example':
                    examples.add(key)
                    k = body_start(text)
                    if key in sorried or k is None:
                        new = 'example : True := trivial'
                    else:
                        new = text[:k] + ':= sorry'; sorried.add(key)
                elif kd in ('theorem', 'lemma'):
                    k = body_start(text)
                    if key in sorried or k is None:
                        new = f'theorem removed_{abs(hash(key)) % 10**8} : True := trivial'; removed.add(n)
                    else:
                        new = text[:k] + ':= sorry'; sorried.add(key)
                else:
                    if 'Model/' in f:
                        log['status'] = f'model does not elaborate: {key}\n' + out[-1500:]
                        return
                    k = body_start(text)
                    if key in sorried or k is None:
                        log['status'] = f'stuck at {key}'; return
                    new = text[:k] + ':= sorry'
                    if kd == 'def': new = text[:k] + ':= sorry'
                    sorried.add(key)
                lines[s:e] = new.split('\n') + ['']
                progress = True
            open(f'{WORK}/{f}', 'w').write('\n'.join(lines))
        if not progress:
            log['status'] = 'no progress: ' + out[-800:]
            return
    claims = []
    for f in sorted(os.listdir(f'{BASE}/Verif/Props')):
        src = open(f'{BASE}/Verif/Props/{f}').read()
        claims += re.findall(r'^theorem (C\d+_\S+)', src, re.M)
    alive = [c for c in claims if c not in removed]
    # full names
    ns = json.load(open('/verif/MANIFEST.json'))
    full = {t.split('.')[-1]: t for c in ns['claims'] for t in c['theorems']}
    with open(f'{WORK}/Ax.lean', 'w') as o:
        o.write('import Verif\n')
        for c in alive: o.write(f'#print axioms {full.get(c, c)}\n')
    out = run('lake env lean Ax.lean 2>&1')
    failed = set(removed & set(claims))
    for mm in re.finditer(r"'(\S+)' depends on axioms: \[([^\]]*)\]", out):
        if 'sorryAx' in mm.group(2): failed.add(mm.group(1).split('.')[-1])
    if ': error' in out: other.append('axioms: ' + out[:500])
    log['status'] = 'done'
    log['failed'] = sorted(failed)
    log['sorried'] = sorted(sorried)
    log['examples'] = sorted(examples)
    log['removed'] = sorted(removed)
    log['other'] = other
    if m.get('refute'):
        with open(f'{WORK}/Refute.lean', 'w') as o:
            o.write('import Verif\nopen Chomp Chomp.Spec Chomp.Props\n' + m['refute'] + '\n')
        out = run('lake env lean Refute.lean 2>&1')
        log['refuted'] = ': error' not in out
        if ': error' in out: log['refute_output'] = out[:1500]
    log['survived_breaks'] = [b for b in m.get('breaks', []) if not any(x.startswith(b + '_') for x in failed)]

def main():
    muts = json.load(open(sys.argv[1]))
    res = sys.argv[2]
    want = set(sys.argv[3:])
    done = set()
    if os.path.exists(res):
        done = {json.loads(l)['id'] for l in open(res)}
    for m in muts:
        if (want and m['id'] not in want) or (not want and m['id'] in done): continue
        log = dict(m)
        try:
            one(m, log)
        except Exception as ex:
            log['status'] = f'exception {ex!r}'
        with open(res, 'a') as o: o.write(json.dumps(log, ensure_ascii=False) + '\n')
        print(m['id'], log['status'][:300], 'failed', len(log.get('failed', [])), 'missed', log.get('survived_breaks'), 'refuted', log.get('refuted'), flush=True)

main()
