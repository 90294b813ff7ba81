"""Extract what the functions of /repo/src do with heap blocks: lean/Verif/Model/HeapTable.lean.

Kept of each function: `p = malloc(..)`, `free(p)`, `p = NULL`, `gauss_list.push_back(gp_n)`, the calls of functions of
the library, the uses of tracked pointers, `return`, `break`, and the control structure around them.  Tracked pointers:
the members that point to heap blocks, the arrays of the matrix, the two pointers of a Gauss point, and the local
variables initialised by `malloc`.  Any other occurrence of a tracked pointer than `p == NULL`, `p != NULL`, `!p` and
`assert(.. p ..)` counts as a use.  Of the conditions, the comparisons of a tracked pointer with NULL and of the
member `dim` with 2 and 3 are kept; the others are left open.  The matrix `m` of the functions of ell.cpp is `A`.
The script stops on anything it does not understand.
"""
import re, os
HERE = os.path.dirname(os.path.abspath(__file__))
SRC = os.environ.get('SITES_SRC', '/repo/src')
OUT = os.environ.get('TEXT_OUT', HERE + '/../lean/Verif/Model')
FILES = ['ell', 'assembly', 'solve', 'homogenize', 'output', 'micro']
MEM = ['b', 'du', 'u', 'elem_stress', 'elem_strain', 'elem_type', 'vars_old', 'vars_new']
TYPES = {'int', 'double', 'bool', 'ell_solver', 'material_t', 'gp_t', 'auto', 'ofstream', 'list', 'stringstream', 'string', 'char', 'ell_matrix', 'unsigned'}
FN = {}
for f in FILES:
    t = open(f'{SRC}/{f}.cpp').read()
    t = re.sub(r'/\*.*?\*/', lambda m: '\n' * m.group().count('\n'), t, flags=re.S)
    t = re.sub(r'//[^\n]*', '', t)
    t = re.sub(r'^[ \t]*#(?:.*\\\n)*.*$', lambda m: '\n' * m.group().count('\n'), t, flags=re.M)
    pos = 0
    for m in re.finditer(r'^(?:(?:void|int|double|bool)\s+)?(?:micropp_t::)?(~?\w+)\s*\(([^{};]*?)\)(\s*:\s*[^{]*)?\s*\{', t, re.M):
        if m.start() < pos: continue
        i = m.end(); d = 1
        while d: d += {'{': 1, '}': -1}.get(t[i], 0); i += 1
        assert re.sub(r'using namespace std;|[\s;]', '', t[pos:m.start()]) == '', t[pos:m.start()]
        pos = i
        n = {'micropp_t': 'ctor', '~micropp_t': 'dtor'}.get(m.group(1), m.group(1))
        k = n
        if n in FN: k = n + '_3'                       # overloads
        FN[k] = dict(name=n, meth='micropp_t::' in m.group(0), params=m.group(2), body=t[m.end():i - 1], file=f,
                     first=t[:m.start()].count('\n') + 1, last=t[:i].count('\n') + 1)
    assert re.sub(r'using namespace std;|[\s;]', '', t[pos:]) == '', t[pos:]
NAMES = {}
for k, v in FN.items(): NAMES.setdefault(v['name'], []).append(k)
assert all(len(v) == 1 or v == ['getElemDisp', 'getElemDisp_3'] for v in NAMES.values()), [v for v in NAMES.values() if len(v) > 1]
OTHER = {'sqrt', 'fabs', 'abs', 'pow', 'assert', 'sizeof', 'setw', 'setprecision', 'to_string', 'if', 'for', 'while', 'return', 'malloc', 'free', 'open', 'close', 'str', 'begin', 'end', 'push_back', 'max',
         'nod_index', 'glo_elem3D', 'intvar_ix', 'nod_index3D', 'nod_index2D', 'c_str', 'size', 'ios_base', 'app'}
SKIP = ('s', 'skip')
def seq(l):
    l = [x for x in l if x != SKIP]
    if not l: return SKIP
    r = l[-1]
    for x in reversed(l[:-1]): r = ('seq', x, r)
    return r
class P:
    def __init__(s, k):
        f = FN[k]; s.k = k; s.f = f; s.t = re.findall(r'"(?:[^"\\]|\\.)*"|\'[^\']*\'|[A-Za-z_]\w*|\d[\w.]*(?:e-?\d+)?|->|<<|>>|\+\+|--|\+=|-=|\*=|/=|==|!=|<=|>=|&&|\|\||::|\S', f['body'])
        s.i = 0; s.loc = set()
        s.shadow = {p.strip().split('[')[0].split()[-1].lstrip('*&') for p in f['params'].split(',') if p.strip() and p.strip() != 'void'} 
        for j in range(len(s.t)):
            if s.t[j] in TYPES:
                e = j + 1
                depth = 0
                while e < len(s.t) and not (depth == 0 and s.t[e] in (';', ')', ':', '{')):
                    if s.t[e] in '([': depth += 1
                    if s.t[e] in ')]': depth -= 1
                    if depth == 0 and re.fullmatch(r'[A-Za-z_]\w*', s.t[e]) and s.t[e - 1] in TYPES | {'*', '&', ',', 'const'}: s.shadow.add(s.t[e])
                    e += 1
    def pk(s, d=0): return s.t[s.i + d] if s.i + d < len(s.t) else None
    def eat(s, *xs):
        for x in xs:
            assert s.t[s.i] == x, (s.k, s.t[max(0, s.i - 5):s.i + 8], x); s.i += 1
    def paren(s):
        s.eat('('); j = s.i; d = 1
        while d: d += {'(': 1, ')': -1}.get(s.t[s.i], 0); s.i += 1
        return s.t[j:s.i - 1]
    def upto(s, x):
        j = s.i; d = 0
        while not (d == 0 and s.t[s.i] == x): d += {'(': 1, ')': -1, '[': 1, ']': -1}.get(s.t[s.i], 0); s.i += 1
        r = s.t[j:s.i]; s.i += 1
        return r
    def ptr(s, e, j):
        """The tracked pointer at position j of e: (name, end)."""
        x = e[j]; nx = e[j + 1] if j + 1 < len(e) else None
        if nx in ('.', '->') and j + 2 < len(e):
            q = e[j + 2]
            if x == 'm' and q in ('cols', 'vals') and not s.f['meth']: return 'A_' + q, j + 3
            if x == 'A' and q in ('cols', 'vals') and s.f['meth']: return 'A_' + q, j + 3
            if x == 'gp' and q in ('int_vars_n', 'int_vars_k'): return {'int_vars_n': 'g_n', 'int_vars_k': 'g_k'}[q], j + 3
            if x == 'gp_n' and q in ('int_vars_n', 'int_vars_k'): return {'int_vars_n': 'new_n', 'int_vars_k': 'new_k'}[q], j + 3
            return None
        if j > 0 and e[j - 1] in ('.', '->', '::'): return None
        if x in s.loc: return x, j + 1
        if s.f['meth'] and x in MEM and x not in s.shadow: return x, j + 1
        return None
    def events(s, e):
        """Uses and calls in an expression."""
        r = []; cs = []; j = 0
        while j < len(e):
            assert e[j] not in ('malloc', 'free', 'new', 'delete', 'calloc', 'realloc', 'push_back', 'swap', 'erase', 'clear', 'goto', 'switch', 'throw', 'continue'), (s.k, e)
            if e[j] == 'assert':
                d = 0; j += 1
                while True:
                    d += {'(': 1, ')': -1}.get(e[j], 0); j += 1
                    if d == 0: break
                continue
            p = s.ptr(e, j)
            if p:
                n, j2 = p
                nx = e[j2:j2 + 2]
                if nx in (['==', 'NULL'], ['!=', 'NULL']) or (j > 0 and e[j - 1] == '!'): j = j2; continue
                assert not (nx and nx[0] == '='), (s.k, e)
                if ('use', n) not in r: r.append(('use', n))
                j = j2; continue
            x = e[j]
            if re.fullmatch(r'[A-Za-z_]\w*', x) and j + 1 < len(e) and e[j + 1] == '(':
                if x in NAMES and not (j > 0 and e[j - 1] in ('.', '->', '::')):
                    ks = NAMES[x]
                    if len(ks) > 1:
                        d = 0; i = j + 1; commas = 0
                        while True:
                            d += {'(': 1, ')': -1}.get(e[i], 0)
                            if d == 1 and e[i] == ',': commas += 1
                            if d == 0: break
                            i += 1
                        ks = [k for k in ks if FN[k]['params'].count(',') == commas]
                    assert len(ks) == 1
                    cs.append(('call', ks[0]))
                else: assert x in OTHER or x in s.shadow, (s.k, x)
            j += 1
        return r + cs
    def strip(s, e):
        while e and e[0] == '(' and e[-1] == ')':
            d = 0
            for j, x in enumerate(e):
                d += {'(': 1, ')': -1}.get(x, 0)
                if d == 0 and j + 1 < len(e): return e
            e = e[1:-1]
        return e
    def cond(s, e, a, b):
        e = s.strip(e); ev = s.events(e)
        if e and e[0] == '!' and s.ptr(e, 1) and s.ptr(e, 1)[1] == len(e): return ('ifNull', s.ptr(e, 1)[0], a, b)
        p = s.ptr(e, 0) if e else None
        if p and e[p[1]:] == ['==', 'NULL']: return ('ifNull', p[0], a, b)
        if p and e[p[1]:] == ['!=', 'NULL']: return ('ifNull', p[0], b, a)
        if s.f['meth'] and 'dim' not in s.shadow and len(e) == 3 and e[:2] == ['dim', '=='] and e[2] in ('2', '3'):
            return ('ifDim', {'2': 'two', '3': 'three'}[e[2]], a, b)
        if a == SKIP and b == SKIP: return seq(ev)
        return seq(ev + [('alt', a, b)])
    def block(s):
        l = []
        while s.pk() not in ('}', None): l.append(s.stmt())
        return seq(l)
    def loop(s, b): return SKIP if b == SKIP else ('loop', b)
    def stmt(s):
        x = s.pk()
        if x == '{': s.eat('{'); r = s.block(); s.eat('}'); return r
        if x == ';': s.eat(';'); return SKIP
        if x == 'if':
            s.eat('if'); c = s.paren(); a = s.stmt(); b = SKIP
            if s.pk() == 'else': s.eat('else'); b = s.stmt()
            return s.cond(c, a, b)
        if x == 'for':
            s.eat('for'); h = s.paren(); b = s.stmt()
            if ':' in h:
                k = h.index(':')
                if not s.f['meth'] and h == ['auto', 'l', ':', 'tmp']: return s.loop(b)
                assert h[k + 1:] == ['gauss_list'] and h[:k] in (['auto', '&', 'gp'], ['auto', 'const', '&', 'gp'], ['const', 'auto', '&', 'gp']), (s.k, h)
                return SKIP if b == SKIP else ('each', b)
            k1 = h.index(';'); k2 = h.index(';', k1 + 1)
            if h[:k1] == ['gp', '=', 'gauss_list', '.', 'begin', '(', ')']:
                assert h[k1 + 1:] == ['gp', '!=', 'gauss_list', '.', 'end', '(', ')', ';', '+', '+', 'gp'] or h[k1 + 1:] == ['gp', '!=', 'gauss_list', '.', 'end', '(', ')', ';', '++', 'gp'], h
                return SKIP if b == SKIP else ('each', b)
            c = s.events(h[k1 + 1:k2])
            return seq(s.events(h[:k1]) + c + [s.loop(seq([b] + s.events(h[k2 + 1:]) + c))])
        if x == 'while':
            s.eat('while'); c = s.events(s.paren()); b = s.stmt()
            return seq(c + [s.loop(seq([b] + c))])
        if x == 'do':
            s.eat('do'); b = s.stmt(); s.eat('while'); c = s.events(s.paren()); s.eat(';')
            return s.loop(seq([b] + c))
        if x == 'return': s.eat('return'); return seq(s.events(s.upto(';')) + [('s', 'ret')])
        if x == 'break': s.eat('break', ';'); return ('s', 'brk')
        e = s.upto(';')
        if e[:2] == ['free', '(']:
            p = s.ptr(e, 2); assert p and e[p[1]:] == [')'], (s.k, e)
            return ('free', p[0])
        if s.f['meth'] and 'dim' not in s.shadow and e == ['assert', '(', 'dim', '==', '2', '||', 'dim', '==', '3', ')']:
            return ('s', 'known')
        if 'malloc' in e:
            if e[:2] in (['double', '*'], ['int', '*']):
                n = e[2]; k = 3; s.loc.add(n); s.shadow.discard(n)
            else:
                p = s.ptr(e, 0); assert p, (s.k, e)
                n, k = p
            assert e[k] == '=' and re.fullmatch(r'\( (double|int) \* \) malloc', ' '.join(e[k + 1:k + 6])) and e.count('malloc') == 1, (s.k, e)
            assert s.events(e[k + 6:]) == [], e
            return ('alloc', n)
        if e[-2:] == ['=', 'NULL'] and e[0] != 'int':
            p = s.ptr(e, 0); assert p and p[1] == len(e) - 2, (s.k, e)
            return ('null', p[0])
        if 'push_back' in e:
            assert e == ['gauss_list', '.', 'push_back', '(', 'gp_n', ')'], e
            return ('s', 'push')
        if 'gauss_list' in e: raise AssertionError((s.k, e))
        if '=' in e:
            k = e.index('='); p = s.ptr(e, 0)
            assert not (p and p[1] == k), (s.k, e)
        return seq(s.events(e))
TREE = {}
for k in FN:
    p = P(k); TREE[k] = p.block(); assert p.i == len(p.t), k
def calls(t): return [t[1]] if t[0] == 'call' else [c for x in t[1:] if isinstance(x, tuple) for c in calls(x)]
def has(t, k): return t[0] == k or any(has(x, k) for x in t[1:] if isinstance(x, tuple))
ORD = []
def visit(k, path=()):
    assert k not in path, path
    if k in ORD: return
    for c in calls(TREE[k]): visit(c, path + (k,))
    ORD.append(k)
for k in FN: visit(k)
LIST = {}
for k in ORD: LIST[k] = has(TREE[k], 'each') or has(TREE[k], 's') and 'push' in str(TREE[k]) or any(LIST[c] for c in calls(TREE[k]))
def nopick(t, inside):
    if t[0] == 'each': assert not inside; return nopick(t[1], True)
    if t[0] == 'call': assert not (inside and LIST[t[1]]), t
    if t == ('s', 'push'): assert not inside
    for x in t[1:]:
        if isinstance(x, tuple): nopick(x, inside)
for k in ORD: nopick(TREE[k], False)           # no loop over the list inside a loop over the list
LOC = []
def ptrs(t):
    if t[0] in ('alloc', 'free', 'use', 'null', 'ifNull') and t[1] not in LOC: LOC.append(t[1])
    for x in t[1:]:
        if isinstance(x, tuple): ptrs(x)
for k in ORD: ptrs(TREE[k])
MEMS = MEM + ['A_cols', 'A_vals']
LOCALS = [x for x in LOC if x not in MEMS + ['g_n', 'g_k', 'new_n', 'new_k']] + ['new_n', 'new_k']
def arg(t, ind): return '.' + t[1] if t[0] == 's' else '(\n' + body(t, ind + 1) + ')'
def body(t, ind):
    pad = '  ' * ind
    if t[0] == 'seq':
        a = body(t[1], ind)
        if t[1][0] == 'seq': a = pad + '(' + a.lstrip() + ')'
        return a + ' +>\n' + body(t[2], ind)
    if t[0] == 's': return pad + '.' + t[1]
    if t[0] == 'call': return pad + f'.frame k_{t[1]}'
    if t[0] in ('alloc', 'free', 'use', 'null'): return pad + f'.{t[0]} .{t[1]}'
    if t[0] in ('loop', 'each'): return pad + f'.{t[0]} ' + arg(t[1], ind)
    if t[0] == 'alt': return pad + '.alt ' + arg(t[1], ind) + ' ' + arg(t[2], ind)
    if t[0] in ('ifNull', 'ifDim'): return pad + f'.{t[0]} .{t[1]} ' + arg(t[2], ind) + ' ' + arg(t[3], ind)
    raise AssertionError(t)
L = ['/-!', '# Pointers: what the text does with heap blocks', '', 'Generated by `tools/gen_heap.py`.', '-/', '', 'namespace Verif.Blocks', '',
     '/-- The tracked pointers: members (/repo/include/micro.hpp:69-95), locals (/repo/src/ell.cpp:68-69, 132-136, 223-227), the pointers\nof a Gauss point in a loop over the list (/repo/include/micro.hpp:42-52) and of the one made in\n`set_macro_strain` (/repo/src/homogenize.cpp:101-108). -/',
     'inductive Ptr', '  | ' + ' | '.join(MEMS), '  | ' + ' | '.join(LOCALS), '  | g_n | g_k', 'deriving DecidableEq', '',
     '/-- All of them: /repo/include/micro.hpp:42-95. -/', 'def allPtrs : List Ptr :=', '  [' + ', '.join('.' + x for x in MEMS + LOCALS + ['g_n', 'g_k']) + ']', '',
     '/-- Is it a member of the class?  /repo/include/micro.hpp:69-95. -/', 'def Ptr.isMember : Ptr → Bool', '  | ' + ' | '.join('.' + x for x in MEMS) + ' => true', '  | _ => false', '',
     '/-- Known values of `dim`: /repo/src/micro.cpp:55. -/', 'inductive Dim', '  | two | three | other', 'deriving DecidableEq', '',
     '/-- What is left of a statement: /repo/src/micro.cpp:55-165, /repo/src/ell.cpp:32-300, /repo/src/homogenize.cpp:90-217. -/', 'inductive Skel', '  | skip | ret | brk', '  | known                          -- `assert(dim == 2 || dim == 3)`',
     '  | push                           -- `gauss_list.push_back(gp_n)`', '  | alloc (p : Ptr) | free (p : Ptr) | null (p : Ptr) | use (p : Ptr)', '  | seq (s t : Skel) | alt (s t : Skel) | loop (s : Skel)',
     '  | ifNull (p : Ptr) (s t : Skel) | ifDim (d : Dim) (s t : Skel)', '  | each (s : Skel)                -- a loop over `gauss_list`', '  | frame (s : Skel)               -- a call', '',
     '@[inherit_doc] infixr:58 " +> " => Skel.seq', '']
for k in ORD:
    f = FN[k]
    L += [f"/-- `{f['name'].replace('ctor', 'micropp_t').replace('dtor', '~micropp_t') if k in ('ctor', 'dtor') else f['name']}`: /repo/src/{f['file']}.cpp:{f['first']}-{f['last']}. -/", f'def k_{k} : Skel :=', body(TREE[k], 1), '']
METH = [k for k in ORD if FN[k]['meth'] and k not in ('ctor', 'dtor')]
L += ['/-- The methods other than constructor and destructor; all of them are public: /repo/include/micro.hpp:97-164. -/', 'def methods : List Skel :=', '  [' + ',\n    '.join('k_' + k for k in METH) + ']', '', 'end Verif.Blocks']
open(OUT + '/HeapTable.lean', 'w').write('\n'.join(L) + '\n')
print(len(ORD), 'functions', LOCALS)
