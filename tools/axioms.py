#!/usr/bin/env python3
"""Write the axioms of every theorem named in MANIFEST.json into the section of DESIGN.md between the
markers <!-- axioms --> and <!-- end axioms -->.  Run after `lake build`."""
import json, os, re, subprocess, tempfile, collections
root = os.path.dirname(os.path.dirname(os.path.abspath(__file__)))
names = [t for c in json.load(open(root + '/MANIFEST.json'))['claims'] for t in c['theorems']]
with tempfile.NamedTemporaryFile('w', suffix='.lean') as f:
    f.write('import Verif\n' + ''.join('#print axioms %s\n' % n for n in names))
    f.flush()
    out = subprocess.run(['lake', 'env', 'lean', f.name], cwd=root + '/lean', capture_output=True, text=True).stdout
out = re.sub(r'\s+', ' ', out)
sets = collections.defaultdict(list)
for m in re.finditer(r"'Raki\.(\w+)' (?:depends on axioms: \[([^\]]*)\]|does not depend on any axioms)", out):
    sets[m.group(2) or 'none'].append(m.group(1))
assert sum(map(len, sets.values())) == len(names), out
assert all(a in ('none', 'propext', 'Quot.sound', 'Classical.choice') for s in sets for a in s.split(', ')), sets.keys()
text = '<!-- axioms -->\n'
for s in sorted(sets, key=lambda s: (len(sets[s]), s)):
    text += '* %s (%d theorems): ' % (s, len(sets[s])) + ', '.join(sets[s]) + '.\n'
d = open(root + '/DESIGN.md').read()
d = re.sub(r'<!-- axioms -->\n.*?(?=<!-- end axioms -->)', lambda _: text, d, flags=re.S)
open(root + '/DESIGN.md', 'w').write(d)
print({s: len(v) for s, v in sets.items()})
