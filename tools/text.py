#!/usr/bin/env python3
"""Copy the files of the crate in /repo/src into lean/Verif/Source/Text.lean as
lists of lines, and write the table of names of lean/Verif/Source/Words.lean."""
import re, os
ROOT = '/repo/src/'
OUT = os.path.join(os.path.dirname(os.path.dirname(os.path.abspath(__file__))), 'lean/Verif/Source/')
FILES = ['lib.rs', 'decode.rs', 'instruction.rs'] + \
    ['instruction/%s.rs' % m for m in re.findall(r'mod (\w+);', open(ROOT + 'instruction.rs').read())] + \
    ['decode/%s.rs' % m for m in re.findall(r'mod (\w+);', open(ROOT + 'decode.rs').read())]
KWS = ['fn', 'let', 'mut', 'if', 'else', 'match', 'return', 'use', 'mod', 'type', 'enum', 'struct', 'trait',
       'impl', 'for', 'in', 'pub', 'as', 'true', 'false', 'Self', 'assert', 'unreachable', 'panic', 'write', 'f',
       'unwrap', 'expect', 'into', 'pow', 'iter', 'rev', 'enumerate', 'from',
       'derive', 'Copy', 'Clone', 'Debug', 'PartialEq',
       'cfg', 'test', 'assert_eq', 'assert_ne', 'matches', 'unwrap_or_else', 'std', 'Location', 'caller']
names = open(OUT + 'Names.lean').read()
body = names[names.index('inductive Id where'):names.index('deriving')]
IDS = [x.strip() for x in body.split('|')[1:]]
def text_id(x): return x.strip('«»')
ESC = ('fn', 'let', 'mut', 'if', 'else', 'match', 'return', 'for', 'in', 'as', 'from', 'true', 'false', 'type')
def kw(x): return '«%s»' % x if x in ESC else x
def code(s): return int.from_bytes(s.encode(), 'big')
W = [(k, '.kw .' + kw(k)) for k in KWS] + [(text_id(i), '.id .' + i) for i in IDS]
assert len({w for w, _ in W}) == len(W)
def lit(s): return '"%s"' % s.replace('\\', '\\\\').replace('"', '\\"')
def tree(ws, ind):
    if not ws: return '.leaf'
    m = len(ws) // 2
    w, v = ws[m]
    if len(ws) == 1: return '(.node .leaf %d (%s) .leaf)' % (code(w), v)
    return '(.node %s\n%s%d (%s)\n%s%s)' % (tree(ws[:m], ind + ' '), ind, code(w), v, ind, tree(ws[m+1:], ind + ' '))
o = ['import Verif.Source.Syntax', '/-!', '# The names of the source, by spelling', '',
     'Generated by tools/text.py; do not edit.', '-/', '', 'set_option linter.constructorNameAsVariable false', '', 'namespace Raki.Source', '',
     '/-- Keywords, and the names of macros and library functions the parser knows. -/',
     'inductive Kw where']
line = ' '
for k in KWS:
    if len(line) + len(k) > 100: o.append(line); line = ' '
    line += ' | ' + kw(k)
o += [line, '', '/-- What a word stands for. -/', 'inductive Word where', '  | kw (k : Kw)', '  | id (i : Id)', '',
      '/-- A search tree. -/', 'inductive Tree where', '  | leaf', '  | node (l : Tree) (k : Nat) (v : Word) (r : Tree)', '',
      '/-- Look a number up. -/', 'def Tree.find : Tree → Nat → Option Word', '  | .leaf, _ => none',
      '  | .node l k v r, n => match Nat.beq n k with', '    | true => some v', '    | false => match Nat.blt n k with',
      '      | true => l.find n', '      | false => r.find n', '',
      '/-- The number of entries. -/', 'def Tree.size : Tree → Nat', '  | .leaf => 0', '  | .node l _ _ r => l.size + 1 + r.size', '']
o += ['/-- The words with a meaning, spelled out. -/', 'def spelling : List (String × Word) :=', '  [']
line = '   '
for i, (w, v) in enumerate(W):
    c = '("%s", %s)' % (w, v) + (',' if i + 1 < len(W) else ']')
    if len(line) + len(c) > 106: o.append(line); line = '   '
    line += ' ' + c
o += [line, '', '/-- The same, keyed by the number the characters of a word spell in base 256. -/', 'def words : Tree :=',
      '  ' + tree(sorted(W, key=lambda x: code(x[0])), '  '), '', 'end Raki.Source', '']
open(OUT + 'Words.lean', 'w').write('\n'.join(o))
t = ['/-!', '# The text of the crate', '',
     'The files of /repo/src line by line.  Generated by tools/text.py; do not edit.',
     '-/', '', 'namespace Raki.Source', '']
defs = []
for f in FILES:
    s = open(ROOT + f).read()
    ls = s.split('\n')
    if ls and ls[-1] == '': ls.pop()
    n = re.sub(r'[/.]', '_', f)
    t += ['/-- src/%s:1-%d; the whole file. -/' % (f, len(ls)),
          'def %s : List String :=' % n]
    for i, l in enumerate(ls):
        assert all(32 <= ord(ch) < 127 for ch in l), (f, i, l)
        t.append(('  [' if i == 0 else '   ') + lit(l) + (',' if i + 1 < len(ls) else ']'))
    t.append('')
    defs.append((os.path.basename(f)[:-3], n))
t += ['/-- The files of the crate, with the name of the module each one holds. -/', 'def files : List (String × List String) :=',
      '  [' + ',\n   '.join('("%s", %s)' % d for d in defs) + ']', '', 'end Raki.Source', '']
open(OUT + 'Text.lean', 'w').write('\n'.join(t))
p = ['import Verif.Source.Codes', '/-!',
     '# The files of the crate as character codes', '',
     'Generated by tools/text.py; do not edit.', '-/', '',
     'namespace Raki.Source', '', '/-- The spelling of every word, as character codes. -/',
     'noncomputable def spelling_codes : List (List Nat) := codes_of% (spelling.map (·.1))', '',
     '/-- The table of words agrees with their spelling. -/',
     'theorem words_spelled : spelling.map (fun w => words.find (spell (codes w.1) 0)) = spelling.map (fun w => some w.2) := by',
     '  have h : (spelling.map (·.1)).map codes = spelling_codes :=',
     '    codes_lines spelling_codes _ (by kernel_rfl) (by kernel_rfl)',
     '  have e : spelling.map (fun w => words.find (spell (codes w.1) 0)) =',
     '      ((spelling.map (·.1)).map codes).map (fun c => words.find (spell c 0)) := by',
     '    simp only [List.map_map, Function.comp_def]',
     '  rw [e, h]', '  kernel_rfl', '',
     '/-- The table has no other words. -/', 'theorem words_size : words.size = spelling.length := by kernel_rfl', '']
rows = []
for m, n in defs:
    p += ['/-- The lines of `%s`, as character codes. -/' % n, 'noncomputable def %s_codes : List (List Nat) := codes_of%% %s' % (n, n), '',
          'theorem %s_eq : (spell (codes "%s") 0, %s.map codes) = (spell %s 0, %s_codes) :=' % (n, m, n, [ord(c) for c in m], n),
          '  codes_file _ _ _ _ (by kernel_rfl) (by kernel_rfl) (by kernel_rfl) (by kernel_rfl)', '']
    rows.append('(spell %s 0, %s_codes)' % ([ord(c) for c in m], n))
p += ['/-- The files as character codes. -/', 'noncomputable def files_codes : List (Nat × List (List Nat)) :=', '  [' + ',\n   '.join(rows) + ']', '',
      'theorem files_eq : files.map (fun (m, ls) => (spell (codes m) 0, ls.map codes)) = files_codes := by',
      '  simp only [files, List.map_cons, List.map_nil, files_codes' + ''.join(',\n    %s_eq' % n for m, n in defs) + ']', '',
      'end Raki.Source', '']
open(OUT + 'FileCodes.lean', 'w').write('\n'.join(p))
q = ['import Verif.Source.Codes', '/-!', '# The spelling of each name', '', 'Generated by tools/text.py; do not edit.', '-/', '', 'set_option linter.constructorNameAsVariable false', '',
     'namespace Raki.Source', '', '/-- The text of a name. -/', 'def Id.text : Id → String']
line = ' '
for i in IDS:
    c = ' | .%s => "%s"' % (i, text_id(i))
    if len(line) + len(c) > 106: q.append(line); line = ' '
    line += c
q += [line, '', '/-- All names. -/', 'def Id.all : List Id :=', '  [']
line = '   '
for k, i in enumerate(IDS):
    c = ' .' + i + (',' if k + 1 < len(IDS) else ']')
    if len(line) + len(c) > 106: q.append(line); line = '   '
    line += c
q += [line, '', 'theorem Id.all_getElem (i : Id) : Id.all[i.ctorIdx]? = some i := by', '  cases i <;> rfl', '',
      'theorem Id.mem_all (i : Id) : i ∈ Id.all := List.mem_of_getElem? (Id.all_getElem i)', '',
      '/-- The table of spellings lists every name with its text. -/',
      'theorem spelling_ids : spelling.drop %d = Id.all.map fun i => (i.text, Word.id i) := by\n  kernel_rfl' % len(KWS), '',
      'theorem mem_spelling (i : Id) : (i.text, Word.id i) ∈ spelling := by',
      '  apply List.mem_of_mem_drop (i := %d)' % len(KWS), '  rw [spelling_ids]', '  exact List.mem_map.2 ⟨i, Id.mem_all i, rfl⟩', '', 'end Raki.Source', '']
open(OUT + 'Spelling.lean', 'w').write('\n'.join(q))
