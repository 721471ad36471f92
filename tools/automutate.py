#!/usr/bin/env python3
"""Small edits of the model made mechanically, to find parts of it that no proof depends on.

usage: automutate.py list FILE ...      print the edits of lean/Verif/FILE
       automutate.py run OUT FILE ...   try each of them

Each edit is applied to a scratch copy (MUT, made from BASE with its build output); the modules of theorems are built until the
first error. One JSON object per edit is appended to OUT: `first` is the first declaration that no longer checks, `invalid` says
that the edited file does not compile, and `survived` that everything still checks.
"""
import glob, json, os, re, shutil, signal, subprocess, sys, time

BASE = os.environ.get('BASE', '/tmp/base7')
MUT = os.environ.get('MUT', '/tmp/auto/lean')
LIMIT = int(os.environ.get('LIMIT', '2'))  # edits of one kind in a line
DECL = re.compile(r'^(?:@\[[^\]]*\]\s*)?(?:private |protected |noncomputable )*(theorem|lemma|example|def|abbrev|instance|inductive|structure)\b\s*([^\s:({\[]*)')

OPS = [
    (r'(?<![\w.])(\d+|0x[0-9A-Fa-f]+)(?![\w.])', lambda m: hex(int(m.group(0), 16) + 1) if m.group(0).startswith('0x') else str(int(m.group(0)) + 1)),
    (r' < ', ' ≤ '), (r' ≤ ', ' < '), (r' > ', ' ≥ '), (r' ≥ ', ' > '),
    (r'(?<=if ).*? = ', lambda m: m.group(0)[:-3] + ' ≠ '), (r' == ', ' != '), (r' ≠ ', ' = '), (r' != ', ' == '),
    (r' && ', ' || '), (r' \|\| ', ' && '), (r' ∧ ', ' ∨ '), (r' ∨ ', ' ∧ '),
    (r'\btrue\b', 'false'), (r'\bfalse\b', 'true'),
    (r' \+ ', ' - '), (r' - ', ' + '),
    (r'\.isSome\b', '.isNone'), (r'\.isNone\b', '.isSome'), (r'\.isEmpty\b', '.isEmpty.not'),
    (r'!(?=[\w(])', ''), (r'(?<=if )(?!let)(?=\w+ then)', '¬ '),
    (r'\.be16\b', '.be32'), (r'\.be32\b', '.be16'),
    (r' \+\+ [\w.()]+', ''),
    (r'\.tail\b', ''), (r'\.reverse\b', ''),
]

def edits(path):
    """(line number, new line, definition) for each edit."""
    lines = open(path).read().split('\n')
    depth = 0
    name = ''
    for i, l in enumerate(lines):
        start = depth
        depth += l.count('/-') - l.count('-/')
        if start > 0 or l.lstrip().startswith('/-') or l.lstrip().startswith('--') or depth > 0:
            continue
        m = DECL.match(l)
        if m:
            name = m.group(2)
            if m.group(1) in ('structure', 'inductive'):
                name = None
        if not name or re.match(r'(import|open|namespace|end|termination_by|decreasing_by|variable|deriving|set_option)\b', l.lstrip()):
            continue
        code = l.split(' --')[0]
        quoted = [(q.start(), q.end()) for q in re.finditer(r'"(\\.|[^"\\])*"', code)]
        sig = 0
        if m:
            k = code.find(':=')
            sig = k if k >= 0 else len(code)
        for pat, rep in OPS:
            for q in list(re.finditer(pat, code))[:LIMIT]:
                if q.start() < sig or any(a <= q.start() < b for a, b in quoted):
                    continue
                r = rep(q) if callable(rep) else rep
                yield i, code[:q.start()] + r + code[q.end():], name
        if not m and re.match(r'\s+(M\.modify|M\.set|setConn|markRows|rowsMark|let _ ←|modify)', code):
            yield i, re.match(r'\s*', code).group(0) + 'pure ()', name

def decl_at(lines, i):
    while i >= 0:
        m = DECL.match(lines[i])
        if m:
            return m.group(2) or 'example'
        i -= 1

def main():
    if sys.argv[1] == 'list':
        for f in sys.argv[2:]:
            for i, new, name in edits(f'{BASE}/Verif/{f}'):
                print(f, i + 1, name, '|', new.strip())
        return
    out = sys.argv[2]
    done = set()
    if os.path.exists(out):
        for l in open(out):
            d = json.loads(l)
            done.add((d['file'], d['line'], d['new']))
    def restore():
        for top in ('Verif', '.lake/build'):
            for d, _, fs in os.walk(f'{BASE}/{top}'):
                e = MUT + d[len(BASE):]
                os.makedirs(e, exist_ok=True)
                for x in set(os.listdir(e)) - set(os.listdir(d)):
                    if os.path.isfile(f'{e}/{x}'):
                        os.remove(f'{e}/{x}')
                for x in fs:
                    a, b = os.stat(f'{d}/{x}'), f'{e}/{x}'
                    if not os.path.exists(b) or os.stat(b).st_size != a.st_size or os.stat(b).st_mtime_ns != a.st_mtime_ns:
                        shutil.copy2(f'{d}/{x}', b)
    if not os.path.exists(MUT):
        subprocess.run(['cp', '-a', BASE, MUT], check=True)
    targets = ['Verif.' + os.path.relpath(p, f'{BASE}/Verif')[:-5].replace('/', '.') for p in sorted(glob.glob(f'{BASE}/Verif/Props/*.lean'))]
    for f in sys.argv[3:]:
        for i, new, name in list(edits(f'{BASE}/Verif/{f}')):
            if (f, i + 1, new.strip()) in done:
                continue
            restore()
            path = f'{MUT}/Verif/{f}'
            lines = open(path).read().split('\n')
            old = lines[i]
            lines[i] = new
            open(path, 'w').write('\n'.join(lines))
            t = time.time()
            p = subprocess.Popen(['timeout', '1500', 'lake', 'build'] + targets, cwd=MUT, stdout=subprocess.PIPE, stderr=subprocess.STDOUT, text=True, start_new_session=True)
            first = None
            bad = None
            for l in p.stdout:
                e = re.match(r'error: (?:\S*?)(Verif/\S+?\.lean):(\d+):\d+: (.*)', l)
                if e:
                    bad = e.group(1)
                    first = f"{bad}: {decl_at(open(f'{MUT}/{bad}').read().split(chr(10)), int(e.group(2)) - 1)}"
                    break
                if re.match(r'error: ', l):
                    first = l.strip()
                    break
            if first:
                os.killpg(p.pid, signal.SIGKILL)
            p.wait()
            r = dict(file=f, line=i + 1, definition=name, old=old.strip(), new=new.strip(), first=first,
                     invalid=bad == f'Verif/{f}', survived=first is None and p.returncode == 0, seconds=round(time.time() - t))
            open(out, 'a').write(json.dumps(r, ensure_ascii=False) + '\n')
main()
