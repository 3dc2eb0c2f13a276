#!/usr/bin/env python3
"""Generate lean/Verif/Model/Derive.lean from the enum declarations of /repo (derive(Debug, PartialEq))."""
import re, os
root = os.path.dirname(os.path.dirname(os.path.abspath(__file__)))
ENUMS = [('src/decode.rs', 'DecodingError'), ('src/instruction.rs', 'InstFormat'),
         ('src/instruction/base_i.rs', 'BaseIOpcode'), ('src/instruction/m_extension.rs', 'MOpcode'),
         ('src/instruction/a_extension.rs', 'AOpcode'), ('src/instruction/c_extension.rs', 'COpcode'),
         ('src/instruction/zifencei_extension.rs', 'ZifenceiOpcode'),
         ('src/instruction/zicboz_extension.rs', 'ZicbozOpcode'),
         ('src/instruction/zicsr_extension.rs', 'ZicsrOpcode'),
         ('src/instruction/zicfiss_extension.rs', 'ZicfissOpcode'),
         ('src/instruction/zicntr_extension.rs', 'ZicntrOpcode'),
         ('src/instruction/priv_extension.rs', 'PrivOpcode')]


def enum(path, name):
    lines = open('/repo/' + path).read().split('\n')
    k = next(i for i, l in enumerate(lines) if l.startswith('pub enum %s {' % name))
    d = k
    while not lines[d].startswith('#[derive'):
        d -= 1
    assert 'Debug' in lines[d] and 'PartialEq' in lines[d]
    e = next(i for i in range(k, len(lines)) if lines[i] == '}')
    vs = [m.group(1, 2) for l in lines[k + 1:e] for m in [re.match(r'\s*(\w+)(?:\((\w+)\))?,', l)] if m]
    return d + 1, e + 1, vs


out = ['''import Verif.Model.Rust
import Verif.Model.Types
/-!
# Derived `Debug` and `PartialEq`

Generated by `tools/derive.py` from the enum and struct declarations of `/repo`, which carry
`#[derive(Debug, PartialEq)]`.  The derived `Debug` writes the name of the variant (or of the struct and
its fields); this is `{:?}`, the indented `{:#?}` is in Model/DebugPretty.lean.  The derived `PartialEq` compares the
discriminants, which number the variants in the order of declaration, and then the fields.  Neither can
panic, so both are plain functions.
-/

namespace Raki
''']
for path, name in ENUMS:
    a, b, vs = enum(path, name)
    assert all(p is None for _, p in vs)
    out.append('/-- Derived `Debug` of `%s`, %s:%d-%d. -/' % (name, path, a, b))
    out.append('def %s.debug : %s → String' % (name, name))
    out += ['  | .%s => "%s"' % (v, v) for v, _ in vs]
    out.append('')
    out.append('/-- Discriminants of `%s`, %s:%d-%d. -/' % (name, path, a, b))
    out.append('def %s.discr : %s → Nat' % (name, name))
    out += ['  | .%s => %d' % (v, i) for i, (v, _) in enumerate(vs)]
    out.append('')
    out.append('/-- Derived `PartialEq` of `%s`, %s:%d-%d. -/' % (name, path, a, b))
    out.append('def %s.eq (a b : %s) : Bool := a.discr == b.discr' % (name, name))
    out.append('')
a, b, vs = enum('src/instruction.rs', 'OpcodeKind')
loc = 'src/instruction.rs:%d-%d' % (a, b)
out.append('/-- Derived `Debug` of `OpcodeKind`, %s. -/' % loc)
out.append('def OpcodeKind.debug : OpcodeKind → String')
out += ['  | .%s opc => "%s(" ++ opc.debug ++ ")"' % (v, v) for v, _ in vs]
out.append('')
out.append('/-- Derived `PartialEq` of `OpcodeKind`, %s. -/' % loc)
out.append('def OpcodeKind.eq : OpcodeKind → OpcodeKind → Bool')
out += ['  | .%s a, .%s b => a.eq b' % (v, v) for v, _ in vs]
out.append('  | _, _ => false')
L = open('/repo/src/instruction.rs').read().split('\n')
k = L.index('pub struct Instruction {')
e = next(i for i in range(k, len(L)) if L[i] == '}')
fields = [m.group(1, 2) for l in L[k + 1:e] for m in [re.match(r'\s*pub (\w+): (.*),', l)] if m]
LEAN = {'inst_format': 'instFormat', 'is_compressed': 'isCompressed'}
DBG = {'OpcodeKind': 'i.%s.debug', 'Option<usize>': 'debugOption toString i.%s',
       'Option<i32>': 'debugOption toString i.%s', 'InstFormat': 'i.%s.debug', 'bool': 'debugBool i.%s'}
EQ = {'OpcodeKind': 'a.%s.eq b.%s', 'InstFormat': 'a.%s.eq b.%s'}
out.append('''
/-- `Debug` of an `Option` from core: `None` or `Some(…)`. -/
def debugOption {α : Type} (f : α → String) : Option α → String
  | none => "None"
  | some a => "Some(" ++ f a ++ ")"

/-- `Debug` of a `bool` from core. -/
def debugBool : Bool → String
  | true => "true"
  | false => "false"

/-- `PartialEq` of an `Option` from core. -/
def eqOption {α : Type} [BEq α] : Option α → Option α → Bool
  | none, none => true
  | some a, some b => a == b
  | _, _ => false
''')
loc = 'src/instruction.rs:%d-%d' % (k, e + 1)
out.append('/-- Derived `Debug` of `Instruction`, %s. -/' % loc)
out.append('def Instruction.debug (i : Instruction) : String :=')
ls = []
for n, (f, t) in enumerate(fields):
    ls.append('"%s%s: " ++ %s' % ('Instruction { ' if n == 0 else ', ', f, DBG[t] % LEAN.get(f, f)))
out.append('  ' + ' ++\n  '.join(ls) + ' ++ " }"')
out.append('')
out.append('/-- Derived `PartialEq` of `Instruction`, %s. -/' % loc)
out.append('def Instruction.eq (a b : Instruction) : Bool :=')
ls = []
for f, t in fields:
    n = LEAN.get(f, f)
    ls.append((EQ.get(t) or ('(a.%s == b.%s)' if t == 'bool' else 'eqOption a.%s b.%s')) % (n, n))
out.append('  ' + ' && '.join(ls[:4]) + ' &&\n    ' + ' && '.join(ls[4:]))
out.append('\nend Raki')
open(root + '/lean/Verif/Model/Derive.lean', 'w').write('\n'.join(out) + '\n')
