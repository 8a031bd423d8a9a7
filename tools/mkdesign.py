#!/usr/bin/env python3
"""DESIGN.md and AXIOMS.md from the text below, MANIFEST.json, properties.jsonl and the axiom survey tools/axioms.txt
(produced by tools/axioms.sh)."""
import json, os
R = os.path.dirname(os.path.dirname(os.path.abspath(__file__)))
man = {c['property']: c for c in json.load(open(R + '/MANIFEST.json'))['claims']}
props = [json.loads(l) for l in open(R + '/properties.jsonl')]
ax = {}
for l in open(R + '/tools/axioms.txt'):
    n, a = l.rstrip('\n').split(' : ')
    ax[n] = a
plan = {}
exec(open(R + '/tools/plan.py').read())
missing = [p['id'] for p in props if p['id'] not in plan]
assert not missing, missing
noax = [t for c in man.values() for t in c['theorems'] if t not in ax]
assert not noax, noax

body = open(R + '/tools/design_head.md').read()
rows = []
for p in props:
    c = man[p['id']]
    rows.append(f"**{p['id']} {p['title']}** ({c['status']}). {plan[p['id']]}"
                + (f" *{c['note']}*" if c['note'] else ''))
body = body.replace('@PLAN@', '\n\n'.join(rows))
cnt = {}
for t in {t for c in man.values() for t in c['theorems']}:
    cnt[ax[t]] = cnt.get(ax[t], 0) + 1
body = body.replace('@AXCOUNT@', '; '.join(f"{n} theorems: {('{' + a + '}') if a else 'no axiom'}" for a, n in sorted(cnt.items(), key=lambda x: -x[1])))
bad = [p for p in props if 'False of the code' in man[p['id']]['note'] or 'never 138' in man[p['id']]['note']]
body = body.replace('@VIOLATED@', '\n'.join(f"- {p['id']} {p['title']}: {man[p['id']]['note']}" for p in bad))
open(R + '/DESIGN.md', 'w').write(body)
with open(R + '/AXIOMS.md', 'w') as f:
    f.write('# Axioms of every theorem named in MANIFEST.json\n\nProduced by `tools/axioms.sh` (Lean\'s `collectAxioms`).\n\n| theorem | axioms |\n|---|---|\n')
    for t in sorted({t for c in man.values() for t in c['theorems']}):
        f.write(f'| `{t}` | {ax[t] or "none"} |\n')
