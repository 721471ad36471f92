#!/usr/bin/env python3
"""Mutation testing of the theorems.

usage: mutate.py MUTANTS.py [ID ...]

seeded/refutes*.py say how to derive False from statements of theorems in an edited model. KEEP=DIR keeps the edited copies;
REFUTE=1 with KEEP=DIR only derives False in copies kept before.

MUTANTS.py calls mutant(id, file, definition, old, new, claims, why) with the file relative to lean/Verif, the text to
replace and its replacement, and the properties whose English claim the edit makes false. Each mutant is applied to a
scratch copy (MUT, default /tmp/mut/lean). Proofs that no longer check are replaced by `sorry` until everything builds;
then `#print axioms` tells which theorems of MANIFEST.json rest on one of those. One JSON object per mutant is printed
to MUTANTS.py.out.jsonl; `survived` lists the claims named by the mutant none of whose theorems failed.
"""
import glob, json, os, re, shutil, subprocess, sys, time

VERIF = os.path.dirname(os.path.dirname(os.path.abspath(__file__)))
MUT = os.environ.get('MUT', '/tmp/mut/lean')
DECL = re.compile(r'^(?:@\[[^\]]*\]\s*)?(?:private |protected |noncomputable )*(theorem|lemma|example|def|abbrev|instance|inductive|structure)\b\s*([^\s:({\[]*)')
TOP = re.compile(r'^(?:@\[|/--|/-!|private |protected |noncomputable |theorem |lemma |example\b|def |abbrev |instance\b|inductive |structure |end\b|namespace |section\b|variable |open |omit |mutual\b|set_option |attribute |local |termination_by|decreasing_by)')

mutants = []
def mutant(id, file, definition, old, new, claims, why):
    mutants.append(dict(id=id, file=file, definition=definition, old=old, new=new, claims=claims.split(), why=why))

refutes = {}
def refute(id, claim, theorem, term, pre=''):
    """In mutant `id`, `term` has type False given `T`, which has the statement of `theorem`, a theorem of `claim`.
    `pre` are lemmas it needs."""
    refutes.setdefault(id, {})[claim] = (theorem, term, pre)

preambles = []
def preamble(text):
    """Definitions and lemmas available to the refutations."""
    preambles.append(text)

def sync():
    shutil.rmtree(MUT, ignore_errors=True)
    os.makedirs(os.path.dirname(MUT), exist_ok=True)
    subprocess.run(['cp', '-a', os.environ.get('BASE', f'{VERIF}/lean'), MUT], check=True)

def build():
    p = subprocess.run(['timeout', '1500', 'lake', 'build', 'Verif'], cwd=MUT, capture_output=True, text=True)
    return p.returncode, p.stdout + p.stderr

def decl_at(lines, i):
    """First line, keyword and name of the declaration around line i (0-based)."""
    if re.match(r'/--|set_option|@\[|omit', lines[i]):
        while i + 1 < len(lines) and not DECL.match(lines[i]):
            i += 1
    while i >= 0:
        m = DECL.match(lines[i])
        if m:
            return i, m.group(1), m.group(2)
        i -= 1
    return None

def end_of(lines, start):
    j = start + 1
    while j < len(lines) and not TOP.match(lines[j]):
        j += 1
    # keep termination clauses out of the replaced text: drop them with the proof
    while j < len(lines) and re.match(r'^(termination_by|decreasing_by)', lines[j]):
        j += 1
        while j < len(lines) and not TOP.match(lines[j]):
            j += 1
    return j

def statement(text):
    """Statement of a theorem up to its proof."""
    depth = 0
    i = 0
    while i < len(text):
        c = text[i]
        if c in '([{⟨⦃':
            depth += 1
        elif c in ')]}⟩⦄':
            depth -= 1
        elif depth == 0 and text.startswith(':=', i):
            # not a let/have inside the statement
            line = text[text.rfind('\n', 0, i) + 1:i]
            if not re.search(r'\b(let|have)\b[^;]*$', line):
                return text[:i]
        elif depth == 0 and (re.match(r'\n  \| ', text[i:i + 5]) or text.startswith(' where\n', i)):
            return text[:i]
        i += 1
    return None

def sorry_out(path, linenos):
    src = open(path).read()
    lines = src.split('\n')
    broken = {}
    for n in linenos:
        d = decl_at(lines, n - 1)
        if d:
            broken[d[0]] = (d[1], d[2])
    names = []
    for start in sorted(broken, reverse=True):
        kind, name = broken[start]
        if kind not in ('theorem', 'lemma', 'example'):
            return None, f'{path}:{start+1} {kind} {name} does not build'
        j = end_of(lines, start)
        if kind == 'example':
            lines[start:j] = ['example : True := trivial -- MUTSORRY', '']
            names.append(f'example({os.path.basename(path)})')
            continue
        st = statement('\n'.join(lines[start:j]))
        if st is None or 'MUTSORRY' in '\n'.join(lines[start:j]):
            return None, f'{path}:{start+1} {kind} {name} cannot be patched'
        lines[start:j] = (st.rstrip() + ' := by sorry -- MUTSORRY').split('\n') + ['']
        names.append(name)
    open(path, 'w').write('\n'.join(lines))
    return names[::-1], None

def give_up(path):
    """Replace the examples of a module, and the next time the theorems proved by evaluation; which theorems."""
    lines = open(path).read().split('\n')
    starts = [i for i, l in enumerate(lines) if DECL.match(l)]
    ex = [i for i in starts if DECL.match(lines[i]).group(1) == 'example' and 'MUTSORRY' not in lines[i]]
    ev = [i for i in starts if DECL.match(lines[i]).group(1) in ('theorem', 'lemma') and
          re.search(r'decide|:= rfl|exact rfl|by rfl', '\n'.join(lines[i:end_of(lines, i)])) and 'MUTSORRY' not in '\n'.join(lines[i:end_of(lines, i)])]
    names, err = sorry_out(path, [i + 1 for i in ex or ev])
    return names or []

def axioms(names):
    f = os.path.join(MUT, 'MutAxioms.lean')
    open(f, 'w').write('import Verif\n' + ''.join(f'#print axioms {n}\n' for n in names))
    p = subprocess.run(['timeout', '900', 'lake', 'env', 'lean', f], cwd=MUT, capture_output=True, text=True)
    os.remove(f)
    out = re.sub(r'\n\s+', ' ', p.stdout)
    bad = set()
    for m in re.finditer(r"'([^']+)' depends on axioms: \[([^\]]*)\]", out):
        if 'sorryAx' in m.group(2):
            bad.add(m.group(1))
    seen = set(re.findall(r"'([^']+)' (?:depends|does not)", out))
    missing = [n for n in names if n not in seen]
    return bad, missing

def refutations(mu):
    """The properties one of whose theorems is false in the edited model, and what Lean says about the other attempts."""
    good, bad = [], {}
    f = os.path.join(MUT, 'MutRefute.lean')
    for c, (thm, term, pre) in refutes.get(mu['id'], {}).items():
        # T is a hypothesis with the statement of the theorem, so a sorry in the proof of the theorem does not count
        open(f, 'w').write(f'import Verif\nset_option linter.all false\nset_option maxRecDepth 100000\nset_option maxHeartbeats 4000000\nopen Bolt PackStream\n{chr(10).join(preambles)}\n{pre}\ntheorem mutRefuted (T : type_of% @{thm}) : False := {term}\n#print axioms mutRefuted\n')
        p = subprocess.run(['timeout', '900', 'lake', 'env', 'lean', f], cwd=MUT, capture_output=True, text=True)
        if p.returncode == 0 and 'sorryAx' not in p.stdout and "'mutRefuted'" in p.stdout:
            good.append(c)
        else:
            bad[c] = (p.stdout + p.stderr)[-600:]
        os.remove(f)
    return good, bad

def run(mu, manifest):
    t0 = time.time()
    sync()
    path = os.path.join(MUT, 'Verif', mu['file'])
    src = open(path).read()
    if src.count(mu['old']) != 1:
        return dict(mu, error=f"old text occurs {src.count(mu['old'])} times")
    open(path, 'w').write(src.replace(mu['old'], mu['new']))
    direct, given_up = [], []
    for _ in range(60):
        rc, out = build()
        if rc == 0:
            break
        errs = {}
        for m in re.finditer(r'error: (Verif/\S+\.lean):(\d+):(\d+):', out):
            errs.setdefault(m.group(1), set()).add(int(m.group(2)))
        if not errs:
            # Lean was killed: an evaluation in the module no longer ends
            mods = re.findall(r'^- (Verif\.\S+)', out, re.M) if 'exited with code 137' in out or 'exited with code 124' in out else []
            gave = [x for m in mods for x in give_up(os.path.join(MUT, m.replace('.', '/') + '.lean'))]
            if not gave:
                return dict(mu, error='build failed: ' + out[-400:], direct=direct)
            given_up += gave
            continue
        for f, ls in errs.items():
            names, err = sorry_out(os.path.join(MUT, f), ls)
            if err:
                return dict(mu, error=err + ' ' + ' '.join(re.findall(r'error: .*', out)[:3]), direct=direct)
            direct += names
    else:
        return dict(mu, error='too many rounds', direct=direct)
    every = sorted({t for c in manifest for t in c['theorems']})
    bad, missing = axioms(every)
    failed = {c['property']: [t for t in c['theorems'] if t in bad] for c in manifest}
    failed = {p: ts for p, ts in failed.items() if ts}
    refuted, unrefuted = refutations(mu)
    return dict(mu, direct=direct, given_up=given_up, failed=failed, missing=missing, refuted=refuted, unrefuted=unrefuted,
                survived=[p for p in mu['claims'] if p not in failed], seconds=round(time.time() - t0))

def main():
    src = sys.argv[1]
    exec(compile(open(src).read(), src, 'exec'), dict(mutant=mutant))
    for ref in sorted(glob.glob(f'{VERIF}/seeded/refutes*.py')):
        exec(compile(open(ref).read(), ref, 'exec'), dict(refute=refute, preamble=preamble))
    manifest = json.load(open(f'{VERIF}/MANIFEST.json'))['claims']
    out = os.environ.get('OUT', src + '.out.jsonl')
    done = set()
    if os.path.exists(out):
        done = {json.loads(l)['id'] for l in open(out)}
    want = sys.argv[2:]
    if 'REFUTE' in os.environ:
        # only derive False, in the copies kept by an earlier run
        global MUT
        last = {}
        for l in open(out):
            r = json.loads(l)
            if 'error' not in r:
                last[r['id']] = r
        for id in want:
            MUT = os.path.join(os.environ['KEEP'], id)
            refuted, unrefuted = refutations(last[id])
            with open(out, 'a') as f:
                f.write(json.dumps(dict(last[id], refuted=refuted, unrefuted=unrefuted), ensure_ascii=False) + '\n')
            print(id, 'REFUTED', refuted, 'NOT', unrefuted, flush=True)
        return
    for mu in mutants:
        if (want and mu['id'] not in want) or (not want and mu['id'] in done):
            continue
        r = run(mu, manifest)
        if 'KEEP' in os.environ:
            subprocess.run(['cp', '-a', MUT, os.path.join(os.environ['KEEP'], mu['id'])], check=True)
        with open(out, 'a') as f:
            f.write(json.dumps(r, ensure_ascii=False) + '\n')
        print(r['id'], 'ERROR ' + r['error'] if 'error' in r else
              f"{r['seconds']}s direct={len(r['direct'])} failed={ {p: len(t) for p, t in r['failed'].items()} } REFUTED={r['refuted']} NOT={list(r['unrefuted'])} SURVIVED={r['survived']} missing={len(r['missing'])}", flush=True)

main()
