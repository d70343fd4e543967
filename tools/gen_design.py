#!/usr/bin/env python3
"""Assemble DESIGN.md from tools/design_head.md, tools/plan.json, tools/notes.json and tools/design_tail.md."""
import json, re
props = [json.loads(l) for l in open('/verif/properties.jsonl')]
man = {c['property']: c for c in json.load(open('/verif/MANIFEST.json'))['claims']}
plan = json.load(open('/verif/tools/plan.json'))
out = open('/verif/tools/design_head.md').read()
out += '## Plan and result per property\n\n| id | property | what is modelled | how it is proved | status |\n|---|---|---|---|---|\n'
for p in props:
    w = plan.get(p['id'], ['', ''])
    c = man[p['id']]
    out += f"| {p['id']} | {p['title']} | {w[0]} | {w[1]} | {c['status']} |\n"
out += open('/verif/tools/design_tail.md').read()
open('/verif/DESIGN.md', 'w').write(out)
missing = [p['id'] for p in props if p['id'] not in plan]
print('plan missing:', missing)
