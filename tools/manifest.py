#!/usr/bin/env python3
"""Regenerate MANIFEST.json: theorem names are read from lean/Verif/Props, status and notes are below."""
import json, re, glob, os, collections
root = os.path.dirname(os.path.dirname(os.path.abspath(__file__)))
thms = collections.defaultdict(list)
for f in sorted(glob.glob(root + '/lean/Verif/Props/*.lean')):
    for m in re.finditer(r'^theorem ((C\d+)_\w+)', open(f).read(), re.M):
        thms[m.group(2)].append('Raki.' + m.group(1))
NOTES = json.load(open(root + '/tools/notes.json'))
claims = []
for line in open(root + '/properties.jsonl'):
    p = json.loads(line)['id']
    if p not in thms:
        continue
    n = NOTES.get(p, {})
    claims.append({'property': p, 'status': n.get('status', 'proved'), 'theorems': thms[p],
                   'note': n.get('note', '')})
json.dump({'claims': claims}, open(root + '/MANIFEST.json', 'w'), indent=1, ensure_ascii=False)
print(len(claims), 'claims;', 'without theorem:',
      [json.loads(l)['id'] for l in open(root + '/properties.jsonl') if json.loads(l)['id'] not in thms])
