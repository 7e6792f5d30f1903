#!/usr/bin/env python3
"""log.py RESULTS.jsonl TIGHTENED.json [AUTOMATIC.jsonl NOTES.json]: rewrites seeded/LOG.jsonl from the results of tools/seed.py
and of tools/mutate.py (for these, only the first theorem that failed is known).

TIGHTENED.json maps the id of a seeded bug to the theorems that were added or strengthened because of it. A bug that was run
again after that has a second line."""
import json, re, sys
def definition(m):
    """the name of the definition that the edit is in"""
    s = open('/verif/lean/Verif/' + m['file']).read()
    if m['old'] not in s: return ''
    return re.findall(r'^(?:def|structure|inductive|theorem)\s+(\S+)', s[:s.index(m['old'])], re.M)[-1]

results = [json.loads(l) for l in open(sys.argv[1])]
tightened = json.load(open(sys.argv[2]))
seen, number = set(), {}
with open('/verif/seeded/LOG.jsonl', 'w') as out:
    for r in results:
        if r['status'] not in ('caught', 'MISSED', 'SURVIVED'): continue
        m = r['mutant']
        key = (m['file'], m['old'], m['new'])
        again = (r['id'], key) in seen
        seen.add((r['id'], key))
        used = number.setdefault(r['id'], [])  # the same id may have been given to different bugs
        if key not in used: used.append(key)
        name = r['id'] + ('' if used[0] == key else '-%d' % (used.index(key) + 1))
        t = tightened.get(name, []) if r['status'] != 'caught' else []
        out.write(json.dumps({
            'id': name, 'run': 2 if again else 1, 'file': 'lean/Verif/' + m['file'], 'definition': m.get('def') or definition(m), 'edit': m['edit'],
            'claim_broken': m['claim'], 'properties_broken': m['breaks'], 'outcome': r['status'].lower(),
            'properties_not_failing': r['missed'], 'theorems_failed': r['failed_claims'], 'lemmas_failed': r['failed_decls'],
            'theorems_tightened': t}, ensure_ascii=False) + '\n')
    if len(sys.argv) > 3:
        notes = json.load(open(sys.argv[4]))
        for i, r in enumerate(json.loads(l) for l in open(sys.argv[3])):
            if r['status'] == 'type': continue
            out.write(json.dumps({
                'id': 'auto%d' % i, 'run': 1, 'file': 'lean/Verif/' + r['file'], 'definition': r['def'], 'edit': r['edit'],
                'claim_broken': 'automatic edit, see the definition', 'outcome': 'caught' if r['status'] == 'noticed' else 'survived',
                'theorems_failed': [r['first_failing']] if r['first_failing'] else [],
                'theorems_tightened': notes.get(r['def'] + '|' + r['edit'], [])}, ensure_ascii=False) + '\n')
