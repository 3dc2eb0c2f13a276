#!/usr/bin/env python3
"""Parse the crate in /repo/src (the Rust subset it uses) and write its syntax trees to
lean/Verif/Source/Program.lean.  Nothing is interpreted here: names are resolved to the module or type
that owns them, references and dereferences are dropped, functions are ordered so that callees come
first, and default trait methods are repeated for each implementing type.  Functions compiled only for tests go to
TestProgram.lean."""
import re, os, sys
ROOT = '/repo/src/'
OUT = os.path.join(os.path.dirname(os.path.dirname(os.path.abspath(__file__))), 'lean/Verif/Source/')

TOK = re.compile(r'''\s+|//[^\n]*|(?P<str>"(?:[^"\\]|\\.)*")|(?P<life>'[a-z]+\b)|(?P<num>0b[01_]+(?:u\d+|i32|usize)?|0x[0-9a-fA-F_]+(?:usize)?|\d[\d_]*(?:_?(?:u8|u16|u32|i32|usize))?)|(?P<id>[A-Za-z_]\w*)|(?P<op>\.\.=|::|=>|->|==|>=|<=|!=|>>|<<|\|=|\|\||&&|[-+*/&|<>=!?.,;:(){}\[\]#])''')

class P:
    def __init__(s, path):
        s.path = path; src = open(ROOT + path).read()
        s.t = []; i = 0
        while i < len(src):
            m = TOK.match(src, i)
            assert m, (path, src[i:i+40])
            if m.lastgroup: s.t.append((m.lastgroup, m.group(m.lastgroup), src.count('\n', 0, i) + 1))
            i = m.end()
        s.i = 0
    def peek(s, k=0): return s.t[s.i + k][1] if s.i + k < len(s.t) else None
    def kind(s, k=0): return s.t[s.i + k][0] if s.i + k < len(s.t) else None
    def line(s, k=0): return s.t[s.i + k][2]
    def next(s): s.i += 1; return s.t[s.i - 1][1]
    def eat(s, x):
        if s.peek() == x: s.i += 1; return True
        return False
    def want(s, x): assert s.eat(x), (s.path, s.line(), x, s.peek())
    def skip_attr(s):
        der = []; s.cfgtest = False
        while s.peek() == '#':
            s.next(); s.eat('!'); s.want('['); d = 1; isder = s.peek() == 'derive'
            if [s.peek(k) for k in range(5)] == ['cfg', '(', 'test', ')', ']']: s.cfgtest = True
            while d:
                if isder and s.kind() == 'id' and s.peek() != 'derive': der.append(s.peek())
                c = s.next(); d += (c == '[') - (c == ']')
        return der

# ---- items ----
FNS = []     # dict(owner, name, params, ret, body, file, lines)
ENUMS = {}   # name -> list of (variant, has_arg)
STRUCTS = {} # name -> fields
TYPES = []   # (name, derives, shape)
DEFAULTS = []# default trait methods
IMPLS = []   # (trait, type)

def ty(p):
    while p.peek() in ('&', 'mut') or p.kind() == 'life': p.next()
    if p.eat('['):
        t = ty(p); p.want(']'); return '(.array %s)' % t
    n = p.next()
    while p.eat('::'):
        m = p.next()
        if n != 'Self': n = m
    args = []
    if p.eat('<'):
        args.append(ty(p))
        while p.eat(','): args.append(ty(p))
        p.want('>')
    if n == 'Self' and p.selfty in ('u16', 'u32'): return '.' + p.selfty
    if n in ('u8', 'u16', 'u32', 'usize', 'i32'): return '.' + n
    if n == 'Option': return '(.option %s)' % args[0]
    if n == 'Result': return '(.result %s)' % args[0] if args else '.other'
    return '.other'

def items(p, mod, owner, selfty=None, test=False):
    p.selfty = selfty
    while p.peek() is not None and p.peek() != '}':
        der = p.skip_attr(); test_item = test or p.cfgtest
        if p.peek() is None: break
        p.eat('pub')
        k = p.next()
        if k in ('use',) :
            while not p.eat(';'): p.next()
        elif k == 'mod':
            n = p.next()
            if p.eat(';'): continue
            p.want('{'); items(p, mod, mod + '_' + n, None, test_item); p.selfty = selfty; p.want('}')
        elif k == 'type':
            while not p.eat(';'): p.next()
        elif k == 'enum':
            n = p.next(); p.want('{'); vs = []
            while not p.eat('}'):
                p.skip_attr(); v = p.next(); a = False
                if p.eat('('): a = p.next(); p.want(')')
                p.eat(','); vs.append((v, a))
            ENUMS[n] = vs; TYPES.append((n, der, 'enum', vs))
        elif k == 'struct':
            n = p.next(); p.want('{'); fs = []
            while not p.eat('}'):
                p.skip_attr(); p.eat('pub'); x = p.next(); p.want(':'); fs.append((x, ty(p))); p.eat(',')
            STRUCTS[n] = [x for x, t in fs]; TYPES.append((n, der, 'struct', fs))
        elif k == 'trait':
            n = p.next(); p.want('{')
            items(p, mod, 'trait ' + n); p.want('}')
        elif k == 'impl':
            a = p.next(); tr = None
            if p.eat('<'):
                while not p.eat('>'): p.next()
            if p.eat('for'): tr = a; a = p.next()
            IMPLS.append((tr, a)); p.want('{'); items(p, mod, a, a); p.want('}')
        elif k == 'fn':
            l0 = p.line(-1); n = p.next()
            if p.eat('<'):
                while not p.eat('>'): p.next()
            p.want('('); ps = []
            while not p.eat(')'):
                while p.peek() in ('&', 'mut'): p.next()
                x = p.next(); t = '.other'
                if p.eat(':'): t = ty(p)
                elif x == 'self' and selfty in ('u16', 'u32'): t = '.' + selfty
                ps.append((x, t)); p.eat(',')
            r = '.other'
            if p.eat('->'): r = ty(p)
            if p.eat(';'): continue
            p.scope = (mod, owner, selfty)
            b = block(p)
            d = dict(owner=owner, name=n, params=ps, ret=r, body=b, file=p.path, lines=(l0, p.line(-1)), mod=mod, test=test_item)
            (DEFAULTS if owner.startswith('trait ') else FNS).append(d)
        else: raise Exception((p.path, k, p.line(-1)))

# ---- expressions ----
def path_segs(p):
    segs = [p.next()]
    while p.eat('::'): segs.append(p.next())
    if segs[0] == 'Self': segs[0] = p.scope[2]
    return segs

def block(p):
    p.want('{'); return stmts(p)

def skip_parens(p):
    """the rest of an argument list"""
    d = 1
    while d:
        c = p.next(); d += (c == '(') - (c == ')')

def stmts(p):
    """statements up to and including the closing brace"""
    p.skip_attr()
    if p.eat('}'): return ('done', ('unit',))
    if p.eat('use'):
        while not p.eat(';'): p.next()
        return stmts(p)
    if p.eat('let'):
        p.eat('mut'); x = p.next(); t = '.other'
        if p.eat(':'): t = ty(p)
        p.want('=')
        if p.eat('||'):
            e = ('block', block(p)) if p.peek() == '{' else expr(p)
            p.want(';'); return ('letClosure', x, e, stmts(p))
        if p.eat('|'):
            ps = []
            while not p.eat('|'):
                y = p.next(); p.want(':'); ps.append((y, ty(p))); p.eat(',')
            b = expr(p); p.want(';'); return ('letFn', p.scope[1], x, ps, b, stmts(p))
        e = expr(p); p.want(';'); return ('let', x, t, e, stmts(p))
    if p.peek() in ('assert_eq', 'assert_ne'):
        k = p.next(); p.want('!'); p.want('('); a = expr(p); p.want(','); b = expr(p); skip_parens(p); p.want(';')
        return ('assertEq', 'true' if k == 'assert_eq' else 'false', a, b, stmts(p))
    if p.peek() == 'assert' and p.peek(1) == '!':
        p.next(); p.next(); p.want('('); e = expr(p); p.want(')'); p.want(';'); return ('assert', e, stmts(p))
    if p.eat('for'):
        p.want('('); i = p.next(); p.want(','); m = p.next(); p.want(')'); p.want('in')
        e = expr(p, nostruct=True)
        a = e
        for meth in ('enumerate', 'rev', 'iter'):
            assert a[0] == 'method' and a[2] == meth and a[3] == [], a
            a = a[1]
        p.want('{'); x = p.next(); p.want('|='); b = expr(p); p.want(';'); p.want('}')
        return ('for', i, m, a, x, b, stmts(p))
    e = expr(p)
    if p.eat(';'): return ('expr', e, stmts(p))
    if p.eat('}'): return ('done', e)
    assert e[0] in ('ite', 'match'), (p.path, p.line(), e[0], p.peek())
    return ('expr', e, stmts(p))

LEVELS = [['==', '>='], ['|'], ['&'], ['>>', '<<'], ['+', '-']]
NAMES = {'==': '.eq', '>=': '.ge', '|': '.or', '&': '.and', '>>': '.shr', '<<': '.shl', '+': '.add', '-': '.sub'}
def expr(p, lvl=0, nostruct=False):
    if lvl == 0 and p.eat('return'):
        return ('ret', expr(p))
    if lvl == len(LEVELS): return castexpr(p, nostruct)
    a = expr(p, lvl + 1, nostruct)
    while p.peek() in LEVELS[lvl]:
        o = p.next(); a = ('bin', NAMES[o], a, expr(p, lvl + 1, nostruct))
    return a
def castexpr(p, nostruct):
    e = unary(p, nostruct)
    while p.eat('as'): e = ('cast', e, ty(p))
    return e
def unary(p, nostruct):
    if p.eat('-'): return ('neg', unary(p, nostruct))
    if p.peek() in ('&', '*'):   # references carry no state
        p.next(); return unary(p, nostruct)
    return postfix(p, nostruct)
def args(p, close):
    r = []
    while not p.eat(close):
        r.append(expr(p))
        if not p.eat(','): p.want(close); break
    return r
def postfix(p, nostruct):
    e = primary(p, nostruct)
    while True:
        if p.eat('?'): e = ('question', e)
        elif p.eat('.'):
            n = p.next()
            if n == 'unwrap_or_else':
                p.want('('); p.want('|'); x = p.next(); p.want('|'); b = expr(p); p.want(')'); e = ('orElse', e, x, b)
            elif p.eat('('):
                a = args(p, ')')
                if n == 'unwrap' and not a or n == 'expect': e = ('unwrap', e)
                elif n == 'into' and not a: e = ('into', e)
                elif n == 'pow': e = ('pow', e, a[0])
                else: e = ('method', e, n, a)
            else: e = ('field', e, n)
        else: return e
def num(s):
    m = re.match(r'(.*?)_?(u8|u16|u32|i32|usize)$', s)
    t = None
    if m and (not s.startswith('0x') or s.endswith('usize')): s, t = m.group(1), '.' + m.group(2)
    s = s.replace('_', ''); n = int(s, 0)
    return ('litT', n, t) if t else ('lit', n)
def fmtpieces(s, a):
    s = s[1:-1]; out = []; a = list(a)
    for m in re.finditer(r'\{([^}]*)\}|([^{}]+)', s):
        if m.group(2) is not None: out.append(('text', m.group(2)))
        else:
            nm, _, sp = m.group(1).partition(':')
            spec = {'': '.display', 'x': '.lowerHex', '#x': '.altLowerHex'}[sp]
            out.append(('arg', spec, ('var', nm) if nm else a.pop(0)))
    assert not a
    return out
def primary(p, nostruct):
    k = p.kind(); x = p.peek()
    if k == 'num': return num(p.next())
    if k == 'str': return ('str', p.next())
    if p.eat('('):
        e = expr(p); p.want(')'); return e
    if p.eat('['): return ('array', args(p, ']'))
    if x == '{': return ('block', block(p))
    if p.eat('if'):
        c = expr(p, nostruct=True); a = ('block', block(p)); b = ('unit',)
        if p.eat('else'): b = ('block', block(p))
        return ('ite', c, a, b)
    if p.eat('match'):
        e = expr(p, nostruct=True); p.want('{'); arms = []
        while not p.eat('}'):
            q = pat(p); p.want('=>'); b = expr(p); p.eat(','); arms.append((q, b))
        return ('match', e, arms)
    if x in ('false', 'true'): return ('bool', p.next())
    assert k == 'id', (p.path, p.line(), x)
    if x in ('unreachable', 'panic') and p.peek(1) == '!':
        p.next(); p.next(); p.want('('); skip_parens(p); return ('unreachable',)
    if x == 'matches' and p.peek(1) == '!':
        p.next(); p.next(); p.want('('); e = expr(p); p.want(','); q = pat(p); p.want(')'); return ('matches', e, q)
    if x == 'write' and p.peek(1) == '!':
        p.next(); p.next(); p.want('('); a = args(p, ')'); assert a[0] == ('var', 'f') and a[1][0] == 'str'
        return ('write', fmtpieces(a[1][1], a[2:]))
    segs = path_segs(p)
    if p.peek() == '(':
        p.next(); a = args(p, ')')
        if segs == ['std', 'panic', 'Location', 'caller']: return ('unit',)
        if segs[0] in ('Ok', 'Err', 'Some') and len(segs) == 1:
            return ('variantOf', 'Option' if segs[0] == 'Some' else 'Result', segs[0], a[0])
        if segs[-1] in ('try_from', 'from') and segs[0] in ('u8', 'u16', 'u32'):
            return ('tryFrom' if segs[-1] == 'try_from' else 'from', '.' + segs[0], a[0])
        if len(segs) == 2 and segs[0] in ENUMSEEN: return ('variantOf', segs[0], segs[1], a[0])
        return ('callp', segs, a, p.scope)
    if len(segs) == 1:
        if segs[0] == 'None': return ('variant', 'Option', 'None')
        if p.peek() == '{' and not nostruct and segs[0][0].isupper():
            p.next(); fs = []
            while not p.eat('}'):
                n = p.next(); p.want(':'); fs.append((n, expr(p))); p.eat(',')
            return ('struct', segs[0], fs)
        return ('var', segs[0])
    assert len(segs) == 2, segs
    return ('variant', segs[0], segs[1])

def pat(p):
    p.eat('|'); a = [pat1(p)]
    while p.eat('|'): a.append(pat1(p))
    return a[0] if len(a) == 1 else ('or', a)
def pat1(p):
    if p.kind() == 'num':
        n = num(p.next())[1]
        if p.eat('..='): return ('range', n, num(p.next())[1])
        return ('lit', n)
    if p.eat('_'): return ('wild',)
    segs = path_segs(p)
    if len(segs) == 1 and segs[0] not in ('Ok', 'Err', 'Some', 'None'): return ('wild',) if segs[0] == '_' else ('var', segs[0])
    if len(segs) == 1: segs = ['Option' if segs[0] in ('Some', 'None') else 'Result', segs[0]]
    if p.eat('('):
        q = pat(p); p.eat(','); p.want(')'); return ('ctor1', segs[0], segs[1], q)
    return ('ctor', segs[0], segs[1])

FILES = ['lib.rs', 'decode.rs', 'instruction.rs'] + \
    ['instruction/%s.rs' % m for m in re.findall(r'mod (\w+);', open(ROOT + 'instruction.rs').read())] + \
    ['decode/%s.rs' % m for m in re.findall(r'mod (\w+);', open(ROOT + 'decode.rs').read())]
ENUMSEEN = set()
for f in FILES: ENUMSEEN |= set(re.findall(r'enum (\w+)', open(ROOT + f).read()))
for f in FILES:
    p = P(f); mod = os.path.basename(f)[:-3]; items(p, mod, mod); assert p.peek() is None, (f, p.peek())
for d in DEFAULTS:
    tr = d['owner'][6:]
    for t, a in IMPLS:
        if t == tr:
            assert not any(x['owner'] == a and x['name'] == d['name'] for x in FNS)
            # `Self` in a default method is the implementing type
            FNS.append(dict(d, owner=a, default=tr))

KNOWN = {(d['owner'], d['name']) for d in FNS}
IDS = []
def idn(x):
    if x not in IDS: IDS.append(x)
    return '.' + (x if x not in ('end', 'set', 'from', 'match', 'let', 'variant', 'mut') else '«%s»' % x)
def resolve(segs, scope):
    mod, owner, selfty = scope
    if len(segs) == 1:
        for o in (owner, mod, 'decode', 'instruction', 'inst_32', 'inst_16'):
            if (o, segs[0]) in KNOWN: return o, segs[0]
    o = '_'.join(segs[:-1])
    assert (o, segs[-1]) in KNOWN, segs
    return o, segs[-1]
CALLS = set()
def L(e):
    k = e[0]
    if k == 'lit': return '(.lit %d)' % e[1]
    if k == 'litT': return '(.litT %d %s)' % (e[1], e[2])
    if k == 'unit': return '.unit'
    if k == 'bool': return '(.bool %s)' % e[1]
    if k == 'str': return '(.str %s)' % e[1]
    if k == 'var': return '(.var %s)' % idn(e[1])
    if k == 'variant': return '(.variant %s %s)' % (idn(e[1]), idn(e[2]))
    if k == 'variantOf': return '(.variantOf %s %s %s)' % (idn(e[1]), idn(e[2]), L(e[3]))
    if k == 'callp':
        if len(e[1]) == 1 and not e[2] and e[1][0] in CLOS: return '(.callClosure %s)' % idn(e[1][0])
        if len(e[1]) == 1 and e[1][0] in CLOS: return '(.call %s %s %s)' % (idn(e[3][1]), idn(e[1][0]), Ls(e[2]))
        o, n = resolve(e[1], e[3]); CALLS.add((o, n)); return '(.call %s %s %s)' % (idn(o), idn(n), Ls(e[2]))
    if k == 'method': CALLS.add((None, e[2])); return '(.method %s %s %s)' % (L(e[1]), idn(e[2]), Ls(e[3]))
    if k == 'field': return '(.field %s %s)' % (L(e[1]), idn(e[2]))
    if k == 'bin': return '(.bin %s %s %s)' % (e[1], L(e[2]), L(e[3]))
    if k == 'neg': return '(.neg %s)' % L(e[1])
    if k == 'matches': return '(.matches_ %s %s)' % (L(e[1]), Pt(e[2]))
    if k == 'orElse': return '(.orElse %s %s %s)' % (L(e[1]), idn(e[2]), L(e[3]))
    if k == 'cast': return '(.cast %s %s)' % (L(e[1]), e[2])
    if k in ('tryFrom', 'from'): return '(.%s %s %s)' % ({'tryFrom': 'tryFrom', 'from': 'from_'}[k], e[1], L(e[2]))
    if k == 'pow': return '(.pow %s %s)' % (L(e[1]), L(e[2]))
    if k in ('unwrap', 'into', 'question', 'ret'): return '(.%s %s)' % (k, L(e[1]))
    if k == 'ite': return '(.ite %s %s %s)' % (L(e[1]), L(e[2]), L(e[3]))
    if k == 'match':
        r = '.nil'
        for q, b in reversed(e[2]): r = '(.cons %s %s\n    %s)' % (Pt(q), L(b), r)
        return '(.match_ %s\n    %s)' % (L(e[1]), r)
    if k == 'block':
        if e[1][0] == 'done': return L(e[1][1])
        return '(.block %s)' % S(e[1])
    if k == 'struct':
        r = '.nil'
        for n, b in reversed(e[2]): r = '(.cons %s %s\n    %s)' % (idn(n), L(b), r)
        return '(.struct %s\n    %s)' % (idn(e[1]), r)
    if k == 'array': return '(.array %s)' % Ls(e[1])
    if k == 'unreachable': return '.unreachable'
    if k == 'write':
        CALLS.add((None, 'fmt')) if any(q[0] == 'arg' for q in e[1]) else None
        r = '.nil'
        for q in reversed(e[1]):
            r = '(.text "%s" %s)' % (q[1], r) if q[0] == 'text' else '(.arg %s %s %s)' % (q[1], L(q[2]), r)
        return '(.write %s)' % r
    raise Exception(k)
def Ls(es):
    r = '.nil'
    for e in reversed(es): r = '(.cons %s %s)' % (L(e), r)
    return r
def Pt(q):
    k = q[0]
    if k == 'wild': return '.wild'
    if k == 'var': return '(.var %s)' % idn(q[1])
    if k == 'lit': return '(.lit %d)' % q[1]
    if k == 'range': return '(.range %d %d)' % q[1:]
    if k == 'ctor': return '(.ctor %s %s)' % (idn(q[1]), idn(q[2]))
    if k == 'ctor1': return '(.ctor1 %s %s %s)' % (idn(q[1]), idn(q[2]), Pt(q[3]))
    r = Pt(q[1][-1])
    for x in reversed(q[1][:-1]): r = '(.or %s %s)' % (Pt(x), r)
    return r
CLOS = set()
def S(s):
    k = s[0]
    if k == 'done': return '(.done %s)' % L(s[1])
    if k == 'let': return '(.let_ %s %s %s\n    %s)' % (idn(s[1]), s[2], L(s[3]), S(s[4]))
    if k == 'letClosure':
        b = L(s[2]); CLOS.add(s[1]); return '(.letClosure %s %s\n    %s)' % (idn(s[1]), b, S(s[3]))
    if k == 'letFn':
        b = L(s[4]); CLOS.add(s[2])
        return '(.letFn %s %s [%s] %s\n    %s)' % (idn(s[1]), idn(s[2]), ', '.join('(%s, %s)' % (idn(x), t) for x, t in s[3]), b, S(s[5]))
    if k == 'assertEq': return '(.assertEq %s %s %s\n    %s)' % (s[1], L(s[2]), L(s[3]), S(s[4]))
    if k == 'expr': return '(.expr %s\n    %s)' % (L(s[1]), S(s[2]))
    if k == 'assert': return '(.assert %s\n    %s)' % (L(s[1]), S(s[2]))
    if k == 'for': return '(.forRevEnum %s %s %s %s %s\n    %s)' % (idn(s[1]), idn(s[2]), L(s[3]), idn(s[4]), L(s[5]), S(s[6]))
    raise Exception(k)

for d in FNS:
    CALLS.clear(); CLOS.clear()
    d['lean'] = L(('block', d['body'])); d['calls'] = set(CALLS)
    d['params_l'] = '[%s]' % ', '.join('(%s, %s)' % (idn(x), t) for x, t in d['params'] if x != 'f')
    d['id'] = d['owner'] + '_' + d['name']
    idn(d['owner']); idn(d['name'])
# callees first
order = []; state = {}
def targets(d):
    for o, n in sorted(d['calls'], key=str):
        for x in FNS:
            if x['name'] == n and (o is None or x['owner'] == o) and x is not d:
                if o is None:   # a method: any owner that may own it
                    if n == 'fmt' and d['name'] == 'fmt' and not (d['owner'] == 'Instruction' or d['owner'] == 'OpcodeKind' and x['owner'] != 'Instruction'): continue
                    if n == 'get_format' and d['name'] == 'get_format' and x['owner'] == 'OpcodeKind': continue
                yield x
def visit(d):
    if state.get(d['id']) == 2: return
    assert state.get(d['id']) != 1, 'recursion through ' + d['id']
    state[d['id']] = 1
    for x in targets(d): visit(x)
    state[d['id']] = 2; order.append(d)
for d in FNS: visit(d)
for n, vs in ENUMS.items():
    idn(n)
    for v, a in vs: idn(v)
for n, fs in STRUCTS.items():
    idn(n)
    for f in fs: idn(f)
for x in ('u8', 'u16', 'u32', 'usize', 'i32', 'Option', 'Result', 'Some', 'None', 'Ok', 'Err', 'fmt'): idn(x)

HEAD = '''/-!
# %s

Generated from /repo/src by tools/source.py; do not edit.
-/

'''
def wrap(s):
    out = []
    for line in s.split('\n'):
        ind = re.match(r' *', line).group(0)
        while len(line) > 108:
            # break at a space outside string literals
            cut = None; q = False
            for i, c in enumerate(line[:108]):
                if c == '"': q = not q
                if c == ' ' and not q and i > len(ind): cut = i
            out.append(line[:cut]); line = ind + line[cut+1:] if ind else '    ' + line[cut+1:]
        out.append(line)
    return '\n'.join(out)
with open(OUT + 'Names.lean', 'w') as f:
    f.write(HEAD % 'The names that occur in the source' + 'namespace Raki.Source\n\n/-- The identifiers of the source: modules, types, variants, functions, fields and variables. -/\ninductive Id where\n')
    line = ' '
    for x in IDS:
        w = ' | ' + idn(x)[1:]
        if len(line) + len(w) > 108: f.write(line + '\n'); line = ' '
        line += w if line != ' ' else w
    f.write(line + '\n  deriving DecidableEq\n\nend Raki.Source\n')
with open(OUT + 'Program.lean', 'w') as f:
    f.write('import Verif.Source.Syntax\n' + HEAD % 'The source of the crate, as syntax trees' + 'namespace Raki.Source\n\n')
    for d in order:
        if d['test']: continue
        what = '`%s::%s`' % (d['owner'].replace('_bit_', '::bit_'), d['name'])
        if 'default' in d: what += ', the default method of `%s`' % d['default']
        f.write('/-- %s, src/%s:%d-%d. -/\n' % (what, d['file'], d['lines'][0], d['lines'][1]))
        f.write('def %s : Fn := ⟨%s, %s, %s, %s,\n' % (d['id'], idn(d['owner']), idn(d['name']), d['params_l'], d['ret']))
        f.write(wrap('  ' + d['lean']) + '⟩\n\n')
    f.write('/-- The functions of the crate, file by file; inherited default methods come last. -/\ndef crate : List Fn :=\n')
    f.write(wrap('  [' + ', '.join(d['id'] for d in FNS if not d['test']) + ']') + '\n')
    f.write('\n/-- The types the crate declares, file by file. -/\ndef types : List TypeDecl :=\n')
    ts = []
    for n, der, k, vs in TYPES:
        if k == 'enum': b = ', '.join('(%s, %s)' % (idn(v), 'some %s' % idn(a) if a else 'none') for v, a in vs)
        else: b = ', '.join('(%s, %s)' % (idn(x), t) for x, t in vs)
        ts.append('⟨%s, [%s], .%s [%s]⟩' % (idn(n), ', '.join('.' + x for x in der), k, b))
    f.write(wrap('  [' + ',\n   '.join(ts) + ']') + '\n\nend Raki.Source\n')
with open(OUT + 'TestProgram.lean', 'w') as f:
    f.write('import Verif.Source.Program\n' + HEAD % 'The functions compiled only for tests, as syntax trees' + 'namespace Raki.Source\n\n')
    for d in order:
        if not d['test']: continue
        f.write('/-- `%s`, src/%s:%d-%d. -/\n' % (d['name'], d['file'], d['lines'][0], d['lines'][1]))
        f.write('def %s : Fn := ⟨%s, %s, %s, %s,\n' % (d['id'], idn(d['owner']), idn(d['name']), d['params_l'], d['ret']))
        f.write(wrap('  ' + d['lean']) + '⟩\n\n')
    f.write('/-- The functions of the crate when it is compiled for its tests, file by file. -/\ndef testCrate : List Fn :=\n')
    f.write(wrap('  [' + ', '.join(d['id'] for d in FNS) + ']') + '\n\nend Raki.Source\n')
with open(OUT + 'Lookup.lean', 'w') as f:
    f.write('import Verif.Source.Eval\nimport Verif.Source.Program\n' + HEAD % 'Finding the functions of the crate' + 'namespace Raki.Source\n')
    for d in order:
        if d['test']: continue
        f.write('\ntheorem call_%s (md : Build) (n : Nat) (args : List Val) :\n    call crate md (n + 1) %s %s args =\n      run md (call crate md n) %s args := rfl\n' % (d['id'], idn(d['owner']), idn(d['name']), d['id']))
    f.write('\nend Raki.Source\n')
with open(OUT + 'Embed.lean', 'w') as f:
    f.write('import Verif.Source.Eval\nimport Verif.Model.DecodeUtil\n' + HEAD % 'The model\'s enumerations as source values' + 'namespace Raki.Source\n\n')
    f.write('/-- The source value that a value of the model stands for. -/\nclass Emb (α : Type) where\n  emb : α → Val\n\nexport Emb (emb)\n')
    for n in sorted(ENUMS, key=lambda n: any(a for v, a in ENUMS[n])):
        f.write('\n/-- `%s`, constructor by constructor. -/\ninstance : Emb %s where\n  emb\n' % (n, n))
        for v, a in ENUMS[n]:
            f.write('    | .%s x => .variantOf %s %s (emb x)\n' % (v, idn(n), idn(v)) if a else '    | .%s => .variant %s %s\n' % (v, idn(n), idn(v)))
    f.write('\nend Raki.Source\n')
with open(OUT + 'Faithful.lean', 'w') as f:
    f.write('import Verif.Source.Relate\n' + HEAD % 'Distinct values of the model are distinct source values' + 'namespace Raki.Source\n\n')
    f.write('theorem inj_of_left {α : Type} [Emb α] (g : Val → Option α) (h : ∀ a : α, g (emb a) = some a) (a b : α)\n    (e : emb a = emb b) : a = b := by\n  have h1 := h a\n  rw [e, h b] at h1\n  exact (Option.some.inj h1).symm\n')
    for n in sorted(ENUMS, key=lambda n: any(a for v, a in ENUMS[n])):
        if any(a for v, a in ENUMS[n]):
            f.write('\ntheorem emb_inj_%s (a b : %s) (e : emb a = emb b) : a = b := by\n  cases a <;> cases b <;> first\n' % (n, n))
            for v, a in ENUMS[n]:
                f.write('    | exact congrArg _ (emb_inj_%sOpcode _ _ (Val.variantOf.inj e).2.2)\n' % v)
            f.write('    | exact nomatch (Val.variantOf.inj e).2.1\n')
            continue
        f.write('\n/-- Reads a `%s` back. -/\ndef un%s : Val → Option %s\n' % (n, n, n))
        for v, a in ENUMS[n]:
            f.write('  | .variant _ %s => some .%s\n' % (idn(v), v))
        f.write('  | _ => none\n\ntheorem emb_inj_%s : ∀ a b : %s, emb a = emb b → a = b :=\n  inj_of_left un%s (by intro a; cases a <;> rfl)\n' % (n, n, n))
    f.write('\nend Raki.Source\n')
with open(OUT + 'Declared.lean', 'w') as f:
    f.write('import Verif.Source.Relate\nimport Verif.Source.Program\n' + HEAD % "The declared types against the model's" + 'namespace Raki.Source\n\n')
    f.write('/-- The variants a type is declared with. -/\ndef variantsOf (t : Id) : List (Id × Option Id) :=\n  types.flatMap fun d => match decide (d.name = t), d.shape with\n    | true, .enum vs => vs\n    | _, _ => []\n\n')
    f.write('/-- The fields a type is declared with. -/\ndef fieldsOf (t : Id) : List (Id × Ty) :=\n  types.flatMap fun d => match decide (d.name = t), d.shape with\n    | true, .struct fs => fs\n    | _, _ => []\n\n')
    f.write('/-- `α` has exactly the values that the variants of `t` declare, none of which has an argument. -/\ndef SameEnum (t : Id) (α : Type) [Emb α] : Prop :=\n  ∃ l : List α, (∀ x, x ∈ l) ∧ (variantsOf t).map (fun v => (Val.variant t v.1, v.2)) = l.map (fun x => (emb x, none)) ∧\n    ((variantsOf t).map (·.1)).Nodup\n')
    for n in ENUMS:
        if any(a for v, a in ENUMS[n]): continue
        f.write('\ntheorem same_%s : SameEnum %s %s :=\n' % (n, idn(n), n))
        f.write(wrap('  ⟨[' + ', '.join('.' + v for v, a in ENUMS[n]) + '],') + '\n    by intro x; cases x <;> simp, rfl, by decide⟩\n')
    f.write('\nend Raki.Source\n')
print(len(order), 'functions', len(IDS), 'names')
