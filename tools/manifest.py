#!/usr/bin/env python3
"""Regenerates MANIFEST.json, lean/Verif.lean and lean/Verif/Axioms.lean from tools/claims.txt.

claims.txt has one block per property:
  C01 proved|partial|not_applicable
  : note
  theorem names, one per line
"""
import json, os, re, sys
root = os.path.dirname(os.path.dirname(os.path.abspath(__file__)))
claims, cur = [], None
for line in open(os.path.join(root, 'tools/claims.txt')):
    line = line.strip()
    if not line or line.startswith('#'):
        continue
    m = re.match(r'(C\d+) (proved|partial|not_applicable)$', line)
    if m:
        cur = {"property": m.group(1), "status": m.group(2), "theorems": [], "note": ""}
        claims.append(cur)
    elif line.startswith(':'):
        cur["note"] = (cur["note"] + ' ' + line[1:].strip()).strip()
    else:
        cur["theorems"].append(line)
ids = [json.loads(l)['id'] for l in open(os.path.join(root, 'properties.jsonl'))]
have = {c["property"] for c in claims}
for i in have - set(ids):
    sys.exit('unknown property ' + i)
json.dump({"claims": claims}, open(os.path.join(root, 'MANIFEST.json'), 'w'), indent=1, ensure_ascii=False)
src = os.path.join(root, 'lean/Verif')
mods = []
for d, _, fs in os.walk(src):
    for f in fs:
        if f.endswith('.lean') and f != 'Axioms.lean':
            mods.append(os.path.relpath(os.path.join(d, f), os.path.join(root, 'lean'))[:-5].replace('/', '.'))
mods.sort()
props = [m for m in mods if '.Props.' in m]
with open(os.path.join(src, 'Axioms.lean'), 'w') as o:
    for m in props:
        o.write('import %s\n' % m)
    o.write('/-! The axioms every property theorem depends on. -/\n\n')
    for t in sorted({t for c in claims for t in c["theorems"]}):
        o.write('#print axioms %s\n' % t)
with open(os.path.join(root, 'lean/Verif.lean'), 'w') as o:
    for m in mods + ['Verif.Axioms']:
        o.write('import %s\n' % m)
print('missing:', [i for i in ids if i not in have])
# every theorem in a Props file that is not referenced
names = {t for c in claims for t in c["theorems"]}
