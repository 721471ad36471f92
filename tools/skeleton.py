#!/usr/bin/env python3
"""Derive False from statements of theorems in edited models, quickly.

usage: skeleton.py MUTANTS.py [ID ...]

Like the last step of mutate.py, without the proofs: in a scratch copy (SKEL, default /tmp/skel/lean) every theorem of
Proofs/ and Props/ gets the proof `sorry`, but for the lemmas the refutations of seeded/refutes*.py use and what these rest
on. The copy then builds in a minute or two after an edit of the model. A refutation has the statement of the theorem as a
hypothesis and counts only if it rests on no `sorry`. One JSON object per mutant is appended to MUTANTS.py.skel.out.jsonl.
"""
import glob, json, os, re, shutil, subprocess, sys, time
sys.argv, ARGS = [sys.argv[0], '/dev/null'], sys.argv[1:]
VERIF = os.path.dirname(os.path.dirname(os.path.abspath(__file__)))
SKEL = os.environ.get('SKEL', '/tmp/skel/lean')
BASE = os.environ.get('BASE', f'{VERIF}/lean')
src = open(f'{VERIF}/tools/mutate.py').read().replace('\nmain()\n', '\n')
__file__ = f'{VERIF}/tools/mutate.py'
exec(compile(src, 'mutate.py', 'exec'))
MUT = SKEL

DEPS = '''import Verif
open Lean
partial def deps (env : Environment) : List Name → NameSet → NameSet
  | [], s => s
  | n :: rest, s =>
    if s.contains n then deps env rest s
    else match env.getModuleIdxFor? n with
      | some i =>
        if !(`Verif).isPrefixOf env.header.moduleNames[i.toNat]! then deps env rest s
        else match env.find? n with
          | some c => deps env ((c.type.getUsedConstants.toList ++ (c.value? (allowOpaque := true)).elim [] (·.getUsedConstants.toList)) ++ rest) (s.insert n)
          | none => deps env rest s
      | none => deps env rest s
def names : List Name := [NAMES]
run_meta do
  let env ← getEnv
  for n in (deps env (names.filter env.contains) {}).toList do
    IO.println n
'''

def theorems(root):
    for f in glob.glob(f'{root}/Verif/**/*.lean', recursive=True):
        for l in open(f):
            m = DECL.match(l)
            if m and m.group(1) in ('theorem', 'lemma'): yield m.group(2)

def keep():
    """The theorems whose proofs are kept."""
    text = '\n'.join(open(f).read() for f in glob.glob(f'{VERIF}/seeded/refutes*.py'))
    words = set(re.findall(r"[A-Za-z_][A-Za-z0-9_'.?!]*", text))
    stated = {t for r in refutes.values() for t, _, _ in r.values()}
    ws = sorted({t for t in theorems(BASE) if t in words or any(w.endswith('.' + t.split('.')[-1]) for w in words)} - stated | {'c28_res'})
    ns = [f'`{p}{w}' for w in ws for p in ('', 'Bolt.', 'PackStream.')]
    f = '/tmp/skel_deps.lean'
    open(f, 'w').write(DEPS.replace('NAMES', ', '.join(ns)))
    p = subprocess.run(['lake', 'env', 'lean', f], cwd=BASE, capture_output=True, text=True)
    if p.returncode: sys.exit(p.stdout + p.stderr)
    return {n for n in p.stdout.split()}

def strip(path, kept):
    lines = open(path).read().split('\n')
    ns = []
    heads, mutual = [], None
    for i, l in enumerate(lines):
        m = re.match(r'namespace (\S+)', l)
        if m: ns.append(m.group(1))
        m = re.match(r'end (\S+)', l)
        if m and ns and ns[-1] == m.group(1): ns.pop()
        if l.startswith('mutual'): mutual = []
        elif l == 'end' and mutual is not None:
            # kept together, as one calls the other
            if any(x in kept for x in mutual): kept |= set(mutual)
            mutual = None
        d = DECL.match(l)
        if d and mutual is not None: mutual.append('.'.join(ns + [d.group(2)]))
        if d: heads.append((i, d.group(1), '.'.join(ns + [d.group(2)])))
    for i, kind, name in reversed(heads):
        if kind == 'example':
            j = end_of(lines, i)
            lines[i:j] = ['example : True := trivial', '']
        elif kind in ('theorem', 'lemma') and name not in kept and name.removeprefix('_root_.') not in kept:
            j = end_of(lines, i)
            st = statement('\n'.join(lines[i:j]))
            if st: lines[i:j] = (st.rstrip() + ' := by sorry -- MUTSORRY').split('\n') + ['']
    open(path, 'w').write('\n'.join(lines))

def skeleton():
    shutil.rmtree(SKEL, ignore_errors=True)
    os.makedirs(os.path.dirname(SKEL), exist_ok=True)
    shutil.copytree(BASE, SKEL, ignore=shutil.ignore_patterns('.lake'))
    if os.path.isdir(f'{BASE}/.lake'):
        for x in os.listdir(f'{BASE}/.lake'):
            if x != 'build':
                subprocess.run(['cp', '-a', f'{BASE}/.lake/{x}', f'{SKEL}/.lake/'] if os.path.isdir(f'{SKEL}/.lake') else ['sh', '-c', f'mkdir -p {SKEL}/.lake && cp -a {BASE}/.lake/{x} {SKEL}/.lake/'])
    kept = keep()
    for f in glob.glob(f'{SKEL}/Verif/Pro*/*.lean'): strip(f, kept)
    shutil.rmtree(f'{SKEL}/Verif/Tests', ignore_errors=True)
    v = f'{SKEL}/Verif.lean'
    s = ''.join(l for l in open(v) if 'Verif.Tests' not in l)
    open(v, 'w').write(s)
    return fix()

def fix():
    """Replace what does not build by sorry; an error, or None."""
    for _ in range(40):
        rc, out = build()
        if rc == 0: return None
        errs = {}
        for m in re.finditer(r'error: (Verif/\S+\.lean):(\d+):(\d+):', out):
            errs.setdefault(m.group(1), set()).add(int(m.group(2)))
        if not errs: return 'build failed: ' + out[-600:]
        for f, ls in errs.items():
            names, err = sorry_out(os.path.join(SKEL, f), ls)
            if err: return err + ' ' + ' '.join(re.findall(r'error: .*', out)[:3])
            print('   ', f, names, flush=True)
    return 'too many rounds'

def main():
    path = ARGS[0]
    exec(compile(open(path).read(), path, 'exec'), dict(mutant=mutant))
    for ref in sorted(glob.glob(f'{VERIF}/seeded/refutes*.py')):
        exec(compile(open(ref).read(), ref, 'exec'), dict(refute=refute, preamble=preamble))
    if not os.path.isdir(SKEL) or 'FRESH' in os.environ:
        err = skeleton()
        if err: sys.exit(err)
        shutil.rmtree(SKEL + '.base', ignore_errors=True)
        subprocess.run(['cp', '-a', SKEL, SKEL + '.base'])
    want = ARGS[1:]
    if want == ['none']: return
    out = path + '.skel.out.jsonl'
    for mu in mutants:
        if mu['id'] not in refutes or (want and mu['id'] not in want): continue
        t0 = time.time()
        subprocess.run(['rsync', '-a', '--delete', SKEL + '.base/', SKEL + '/']) if shutil.which('rsync') else (shutil.rmtree(SKEL), subprocess.run(['cp', '-a', SKEL + '.base', SKEL]))
        f = os.path.join(SKEL, 'Verif', mu['file'])
        s = open(f).read()
        if s.count(mu['old']) != 1:
            print(mu['id'], f"old text occurs {s.count(mu['old'])} times", flush=True)
            continue
        open(f, 'w').write(s.replace(mu['old'], mu['new']))
        err = fix()
        if err:
            print(mu['id'], err, flush=True)
            continue
        good, bad = refutations(mu)
        r = dict(mu, direct=[], failed={c: [refutes[mu['id']][c][0]] for c in good}, refuted=good, unrefuted=bad, only=True, seconds=round(time.time() - t0))
        with open(out, 'a') as g: g.write(json.dumps(r, ensure_ascii=False) + '\n')
        print(mu['id'], f"{r['seconds']}s REFUTED={good} NOT={list(bad)}", flush=True)
        for c, m in bad.items(): print('   ', c, m[-500:].replace('\n', '\n    '), flush=True)

main()
