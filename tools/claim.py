#!/usr/bin/env python3
"""claim.py PROPERTY STATUS NOTE THEOREM...: adds or replaces one claim of MANIFEST.json."""
import json, sys
p = '/verif/MANIFEST.json'
m = json.load(open(p))
prop, status, note, *thms = sys.argv[1:]
c = {'property': prop, 'status': status, 'theorems': thms, 'note': note}
m['claims'] = sorted([x for x in m['claims'] if x['property'] != prop] + [c], key=lambda x: x['property'])
json.dump(m, open(p, 'w'), indent=1)
