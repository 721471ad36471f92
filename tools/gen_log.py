#!/usr/bin/env python3
"""Append to seeded/LOG.jsonl one line for every attempt in seeded/*.out.jsonl that is not there yet.

`evidence` says how strong the result is for the claims the edit breaks:
  refuted         the statement of a theorem of the claim is false in the edited model (False is derived from it alone)
  proof broke     the proof of a theorem of the claim itself no longer checks
  helper broke    only lemmas the proof uses no longer check; the statement may still be true in the edited model
  survived        everything still checks
  no verdict      the attempt failed for another reason

seeded/notes.json: {mutant: note}, or {"mutant error": note} for the attempts that ended with an error, or {"mutant N": note}
for attempt N. seeded/tightened.json: {mutant: theorems tightened or added because of it}, for attempts in which a claim
survived or only helper lemmas broke. Both are applied to the lines already in the log as well.
"""
import glob, json, os
V = os.path.dirname(os.path.dirname(os.path.abspath(__file__)))
LOG = f'{V}/seeded/LOG.jsonl'
NOTES = json.load(open(f'{V}/seeded/notes.json'))
TIGHT = json.load(open(f'{V}/seeded/tightened.json'))
key = lambda r: json.dumps([r[k] for k in ('mutant', 'edit', 'evidence', 'theorems_failed', 'proofs_that_broke')], sort_keys=True)
next_attempt = lambda i: max([o['attempt'] for o in lines if o['mutant'] == i], default=0) + 1

def finish(o):
    i = o['mutant']
    note = NOTES.get(f"{i} {o['attempt']}") or ('error' in o and NOTES.get(i + ' error')) or NOTES.get(i)
    o.pop('note', None)
    if note: o['note'] = note
    if i in TIGHT and {'survived', 'helper broke'} & set(o.get('evidence', {}).values()): o['theorems_tightened'] = TIGHT[i]
    return o

lines = [json.loads(l) for l in open(LOG)] if os.path.exists(LOG) else []
have = {key(o) for o in lines}
lines = [finish(o) for o in lines]
# Attempts of tools/skeleton.py, which only derive False from statements: the last one of a mutant counts, with the claims
# refuted in it, unless the log says so already.
last = {}
for src in sorted(glob.glob(f'{V}/seeded/*.out.jsonl')):
    for l in open(src):
        r = json.loads(l)
        if r.get('only'):
            last.setdefault(r['id'], {}).update({c: r for c in r['refuted']})
            continue
        d = set(r.get('direct', []))
        ev = {}
        for c in r['claims']:
            ts = r.get('failed', {}).get(c, [])
            own = [t for t in ts if t.removeprefix('Bolt.') in d or t.split('.')[-1] in d]
            ev[c] = ('no verdict' if 'error' in r else 'refuted' if c in r.get('refuted', []) else
                     'proof broke' if own else 'helper broke' if ts else 'survived')
        o = dict(mutant=r['id'], attempt=next_attempt(r['id']), definition=f"{r['definition']} ({r['file']})",
                 edit=dict(what=r['why'], old=r['old'], new=r['new']), claims=r['claims'], evidence=ev,
                 theorems_failed=sorted({t for c in r['claims'] for t in r.get('failed', {}).get(c, [])}),
                 proofs_that_broke=r.get('direct', []), theorems_tightened=r.get('tightened', []))
        if 'error' in r: o['error'] = r['error'][:300]
        if key(o) not in have:
            have.add(key(o))
            lines.append(finish(o))
for i, rs in last.items():
    done = {c for o in lines if o['mutant'] == i for c, e in o['evidence'].items() if e == 'refuted'}
    cs = sorted(c for c in rs if c not in done)
    if not cs: continue
    r = rs[cs[0]]
    lines.append(finish(dict(mutant=i, attempt=next_attempt(i), definition=f"{r['definition']} ({r['file']})",
        edit=dict(what=r['why'], old=r['old'], new=r['new']), claims=cs, evidence={c: 'refuted' for c in cs},
        theorems_failed=sorted({t for c in cs for t in rs[c]['failed'][c]}), proofs_that_broke=[], theorems_tightened=[],
        method='tools/skeleton.py: the statement of the theorem implies False in the edited model')))
with open(LOG, 'w') as f:
    for o in lines: f.write(json.dumps(o, ensure_ascii=False) + '\n')
