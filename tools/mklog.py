#!/usr/bin/env python3
"""Append results of tools/seed.py to seeded/LOG.jsonl.  usage: mklog.py results.jsonl...
An entry that survived is written with the theorems that caught the same edit in a later result
(the theorems tightened)."""
import json, sys
R = [json.loads(l) for f in sys.argv[1:] for l in open(f)]
out = open('/verif/seeded/LOG.jsonl', 'a')
for i, r in enumerate(R):
    k = (r['definition'], r['edit'])
    tight = []
    if r['survived']:
        for q in R[i + 1:]:
            if (q['definition'], q['edit']) == k and not q['survived']: tight = q['theorems_failed']; break
    bad = not r['survived'] and not r['theorems_failed']
    if bad or any(t.startswith('??') for t in r['theorems_failed']): continue   # prover ran out of memory: repeated later
    own = r['theorems_failed'] and all(t.split(':')[1].split('.')[-1] in (r['definition'].split('.')[-1],) or 'example@' in t for t in r['theorems_failed'])
    e = dict(definition=r['definition'], edit=r['edit'], claim=r['claim'], theorems_failed=r['theorems_failed'], theorems_tightened=tight)
    if own: e['note'] = 'the edited definition itself does not compile (termination or unused match); not counted as a test of the theorems'
    out.write(json.dumps(e) + '\n')
