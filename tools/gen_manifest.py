#!/usr/bin/env python3
"""Write MANIFEST.json from tools/claims.txt and lean/Verif.lean from the files in Verif/Props.

claims.txt has blocks separated by blank lines:
  C17 proved
  theorem names, one or more per line
  # note
"""
import json, os, re
root = os.path.dirname(os.path.dirname(os.path.abspath(__file__)))
claims = []
for block in open(root + '/tools/claims.txt').read().strip().split('\n\n'):
    lines = [l.strip() for l in block.split('\n') if l.strip()]
    prop, status = lines[0].split()
    thms, note = [], []
    for l in lines[1:]:
        if l.startswith('#'): note.append(l[1:].strip())
        else: thms += l.split()
    claims.append(dict(property=prop, status=status, theorems=thms, note=' '.join(note)))
claims.sort(key=lambda c: c['property'])
with open(root + '/MANIFEST.json', 'w') as f:
    f.write('{"claims": [\n ' + ',\n '.join(json.dumps(c) for c in claims) + '\n]}\n')
props = sorted(x[:-5] for x in os.listdir(root + '/lean/Verif/Props') if x.endswith('.lean'))
with open(root + '/lean/Verif.lean', 'w') as f:
    f.write(''.join(f'import Verif.Props.{p}\n' for p in props))
# consistency: every named theorem exists in some file
src = ''
for d, _, fs in os.walk(root + '/lean/Verif'):
    for x in fs:
        if x.endswith('.lean'): src += open(os.path.join(d, x)).read()
names = set(re.findall(r'^(?:theorem|lemma) ([\w.\']+)', src, re.M))
for c in claims:
    for t in c['theorems']:
        if t not in names: print('missing', c['property'], t)
have = {c['property'] for c in claims}
ids = [json.loads(l)['id'] for l in open(root + '/properties.jsonl')]
print('no claim:', [i for i in ids if i not in have])
