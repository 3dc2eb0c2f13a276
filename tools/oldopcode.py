#!/usr/bin/env python3
"""Write lean/Verif/Model/OldOpcode.lean from /repo/src/instruction/opcode.rs, which is not part of the crate."""
import re, os
F = '/repo/src/instruction/opcode.rs'
OUT = os.path.join(os.path.dirname(os.path.abspath(__file__)), '../lean/Verif/Model/OldOpcode.lean')
L = open(F).read().split('\n')

# spelling of the formats in this file -> spelling in the model of src/instruction.rs
FMT = {'Rformat': 'RFormat', 'R_SHAMTformat': 'RShamtFormat', 'Iformat': 'IFormat', 'Sformat': 'SFormat',
       'Bformat': 'BFormat', 'Uformat': 'UFormat', 'Jformat': 'JFormat', 'CRformat': 'CrFormat',
       'CIformat': 'CiFormat', 'CSSformat': 'CssFormat', 'CIWformat': 'CiwFormat', 'CLformat': 'ClFormat',
       'CSformat': 'CsFormat', 'CAformat': 'CaFormat', 'CBformat': 'CbFormat', 'CJformat': 'CjFormat',
       'CSRformat': 'CsrFormat', 'CSRuiformat': 'CsrUiFormat', 'Mformat': 'MFormat', 'Aformat': 'AFormat',
       'A_LRformat': 'ALrFormat', 'NoOperand': 'NoOperand'}

def function(name):
    """The lines of a function, 1-based and inclusive."""
    a = next(i for i, l in enumerate(L) if 'pub fn %s(' % name in l)
    b = next(i for i in range(a, len(L)) if L[i] == '    }')
    return a + 1, b + 1

def arms(name):
    a, b = function(name)
    text = '\n'.join(re.sub(r'//.*', '', l) for l in L[a:b])
    body = text[text.index('match self {') + len('match self {'):]
    got = []
    pat = r'((?:\|?\s*OpcodeKind::\w+\s*)+)=>\s*(?:\{\s*)?(\w+::\w+|"[^"]*")'
    for g in re.finditer(pat, body):
        got.append((re.findall(r'OpcodeKind::(\w+)', g.group(1)), g.group(2)))
    rest = re.sub(pat, '', body)
    assert not re.search(r'[\w"]', rest), rest
    return got

names = [v for vs, _ in arms('to_string') for v in vs]
assert len(names) == len(set(names))
for f in ('get_format', 'get_extension'):
    assert sorted(v for vs, _ in arms(f) for v in vs) == sorted(names), f

def wrap(vs, rhs):
    out, line = [], '  '
    for i, v in enumerate(vs):
        item = '| .%s ' % v
        if len(line) + len(item) > 108:
            out.append(line.rstrip()); line = '  '
        line += item
    if len(line) + 3 + len(rhs) > 110:
        out.append(line.rstrip()); line = '    '
    out.append(line + '=> ' + rhs)
    return '\n'.join(out)

o = []
o.append('''import Verif.Model.DecodeUtil
/-!
# The opcodes of an older version of the crate

Models `/repo/src/instruction/opcode.rs`.  The file lies in the source tree but is not part of the crate: no `mod`
declaration names it, and it would not compile, as it speaks of a flat enumeration of opcodes that is no longer
there.  Written by `tools/oldopcode.py`.

Simplified: the formats are those of `src/instruction.rs`, which this file spells differently (`R_SHAMTformat` for
`RShamtFormat`, and so on).
-/

namespace Raki

/-- The variants of `OpcodeKind` named in src/instruction/opcode.rs:%d-%d. -/
inductive OldOpcode where''' % function('to_string'))
line = '  '
for v in names:
    item = '| %s ' % v
    if len(line) + len(item) > 108:
        o.append(line.rstrip()); line = '  '
    line += item
o.append(line.rstrip())
o.append('  deriving DecidableEq, Repr\n')
o.append('/-- `OpcodeKind::get_format`, src/instruction/opcode.rs:%d-%d. -/' % function('get_format'))
o.append('def OldOpcode.getFormat : OldOpcode → InstFormat')
for vs, r in arms('get_format'):
    o.append(wrap(vs, '.' + FMT[r.split('::')[1]]))
o.append('\n/-- `OpcodeKind::get_extension`, src/instruction/opcode.rs:%d-%d. -/' % function('get_extension'))
o.append('def OldOpcode.getExtension : OldOpcode → Extensions')
for vs, r in arms('get_extension'):
    o.append(wrap(vs, '.' + r.split('::')[1]))
o.append('\n/-- `OpcodeKind::to_string`, src/instruction/opcode.rs:%d-%d. -/' % function('to_string'))
o.append('def OldOpcode.toStr : OldOpcode → String')
for vs, r in arms('to_string'):
    o.append(wrap(vs, r))
o.append('\n/-- The name of a variant in src/instruction/opcode.rs. -/')
o.append('def OldOpcode.ident : OldOpcode → String')
for v in names:
    o.append('  | .%s => "%s"' % (v, v))
o.append('\nend Raki')
open(OUT, 'w').write('\n'.join(o) + '\n')

# the text, line by line
ls = L[:-1] if L[-1] == '' else L
t = ['/-!', '# The text of the file that is not part of the crate', '',
     '`/repo/src/instruction/opcode.rs` line by line.  Generated by tools/oldopcode.py; do not edit.', '-/', '',
     'namespace Raki.Source', '', '/-- src/instruction/opcode.rs:1-%d; the whole file. -/' % len(ls),
     'def opcode_rs : List String :=']
for i, l in enumerate(ls):
    assert all(32 <= ord(ch) < 127 for ch in l), (i, l)
    t.append(('  [' if i == 0 else '   ') + '"%s"' % l.replace('\\', '\\\\').replace('"', '\\"') + (',' if i + 1 < len(ls) else ']'))
t += ['', 'end Raki.Source', '']
open(os.path.join(os.path.dirname(OUT), '../Source/OldText.lean'), 'w').write('\n'.join(t))
