"""Extract the programs of /repo/test: lean/Verif/Model/MainTable.lean.

`main` of test2d_1.cpp, test3d_1.cpp, test3d_7.cpp and test3d_8.cpp, and test3d_3.f90 up to the call of
`micropp_construct`.  `setw(..)`, `scientific` and the blanks between numbers are left out; `cerr` is not extracted.
The script stops on anything it does not know.  It checks that the bound of a loop is a number or a variable that the
body does not assign, that a name is declared before it is used, and not twice in one scope or in one that contains it.
"""
import re, os
HERE = os.path.dirname(os.path.abspath(__file__))
SRC = os.environ.get('MAIN_SRC', '/repo/test')
INC = os.environ.get('MAIN_INC', '/repo/include')
OUT = os.environ.get('TEXT_OUT', HERE + '/../lean/Verif/Model')
IV = 'nx ny nz dim dims dir time_steps micro_type ngp t gp i'.split()
DV = ['d_eps']
IA = 'size mat_types sizes types'.split()
DA = 'micro_params mat_params eps sig ctan MacroStress MacroCtan params strain stress'.split()
mx = re.findall(r'^#define\s+MAX_MAT_PARAM\s+(\d+)', ''.join(open(INC + '/' + f).read() for f in sorted(os.listdir(INC))), re.M)
assert len(mx) == 1, mx
TOKRE = r'"(?:[^"\\]|\\.)*"|\d+\.\d*(?:e-?\d+)?|\w+|<<|\+\+|\+=|-=|&&|\S'

class P:
    def __init__(s, toks, macros):
        s.t = toks; s.p = 0; s.m = macros; s.scopes = [{}]
    def peek(s, k=0): return s.t[s.p + k] if s.p + k < len(s.t) else None
    def eat(s, *xs):
        for x in xs:
            assert s.peek() == x, (s.t[s.p:s.p + 8], x); s.p += 1
    def word(s):
        w = s.peek(); assert re.fullmatch(r'[A-Za-z_]\w*', w), w; s.p += 1
        return w
    def num(s):
        w = s.peek(); assert re.fullmatch(r'\d+', w), w; s.p += 1
        return int(w)
    def decl(s, k, w):
        assert w in {'iv': IV, 'dv': DV, 'ia': IA, 'da': DA}[k], (k, w)
        for sc in s.scopes: assert w not in sc, w
        s.scopes[-1][w] = k
    def use(s, k, w):
        assert any(sc.get(w) == k for sc in s.scopes), (k, w)
        return '.' + w
    # integers
    def iatom(s):
        if s.peek() == '(':
            s.eat('('); e = s.iexp(); s.eat(')'); return e
        if re.fullmatch(r'\d+', s.peek()): return f'(.lit {s.num()})'
        w = s.word()
        if w in s.m: return f'(.lit {s.m[w]})'
        if w == 'atoi':
            s.eat('(', 'argv', '['); k = s.num(); s.eat(']', ')'); return f'(.arg {k})'
        if w == 'argc':
            s.eat('>'); k = s.num(); s.eat('?'); a = s.iexp(); s.eat(':'); b = s.iexp()
            return f'(.opt {k} {a} {b})'
        return f'(.v {s.use("iv", w)})'
    def iprod(s):
        e = s.iatom()
        while s.peek() == '*': s.eat('*'); e = f'(.mul {e} {s.iatom()})'
        return e
    def iexp(s):
        e = s.iprod()
        while s.peek() == '+': s.eat('+'); e = f'(.add {e} {s.iprod()})'
        return e
    # reals
    def dexp(s):
        w = s.peek()
        m = re.fullmatch(r'(\d+)\.(\d*)(?:e(-?\d+))?', w)
        if m:
            s.p += 1
            return f'(.lit {int(m[1] + m[2])} ({int(m[3] or 0) - len(m[2])}))'
        if re.fullmatch(r'\d+', w): return f'(.int {s.num()})'
        w = s.word()
        if s.peek() == '[':
            s.eat('['); k = s.iexp(); s.eat(']'); return f'(.ix {s.use("da", w)} {k})'
        return f'(.v {s.use("dv", w)})'
    def operand(s):
        w = s.peek()
        if w[0] == '"': s.p += 1; return None if w == '" "' else '.str ' + w
        if w == 'endl': s.p += 1; return '.endl'
        if w == 'scientific': s.p += 1; return None
        if w == 'setw': s.p += 1; s.eat('('); s.num(); s.eat(')'); return None
        if s.peek(1) == '[': return '.num ' + s.dexp()
        return '.int ' + s.iexp()
    def declarator(s, ty):
        """one declarator after `int` or `double`"""
        w = s.word()
        if s.peek() == '[':
            s.eat('['); n = s.iexp(); s.eat(']'); k = 'ia' if ty == 'int' else 'da'
            if s.peek() != '=':
                s.decl(k, w); return f'.{k[0]}decl .{w} {n}'
            s.eat('=', '{'); l = []
            while s.peek() != '}':
                l.append(s.iexp() if ty == 'int' else s.dexp())
                if s.peek() != '}': s.eat(',')
            s.eat('}'); s.decl(k, w)
            return f'.{k[0]}init .{w} {n} [' + ', '.join(x[1:-1] if x[0] == '(' else x for x in l) + ']'
        s.eat('='); e = s.iexp() if ty == 'int' else s.dexp()
        k = 'iv' if ty == 'int' else 'dv'; s.decl(k, w)
        return f'.{k[0]}set .{w} {e}'
    def stmt(s):
        """a list of nested statements: strings, or (head, [bodies])"""
        w = s.peek()
        if w == '{':
            s.eat('{'); s.scopes.append({}); r = s.block(); s.scopes.pop(); s.eat('}'); return r
        if w in ('const', 'int', 'double'):
            if w == 'const': s.eat('const')
            ty = s.word(); assert ty in ('int', 'double'), ty
            r = [s.declarator(ty)]
            while s.peek() == ',': s.eat(','); r.append(s.declarator(ty))
            s.eat(';'); return r
        if w == 'cout':
            s.eat('cout'); r = []
            while s.peek() == '<<': s.eat('<<'); r.append(s.operand())
            s.eat(';'); r = [x for x in r if x]
            return ['.print [' + ', '.join(r) + ']'] if r else []
        if w == 'assert':
            s.eat('assert', '('); r = []
            while True:
                a = s.iexp(); s.eat('>'); b = s.iexp(); r.append(f'({a}, {b})')
                if s.peek() == ')': break
                s.eat('&&')
            s.eat(')', ';'); return ['.assert [' + ', '.join(r) + ']']
        if w == 'for':
            s.eat('for', '(', 'int'); s.scopes.append({}); v = s.word()
            s.eat('=', '0', ';', v, '<'); e = s.iexp()
            m = re.fullmatch(r'\((?:\.lit \d+|\.v \.(\w+))\)', e); assert m, e
            s.decl('iv', v); s.eat(';', '++', v, ')'); p0 = s.p; b = s.stmt(); s.scopes.pop()
            body = s.t[p0:s.p]
            for x in {v, m[1]} - {None}:
                for q, y in enumerate(body):
                    if y == x:
                        assert body[q + 1] not in ('=', '++', '+=', '-=') and body[q - 1] != '++', (x, body[q - 2:q + 3])
            return [(f'.forlt .{v} {e}', [b])]
        if w == 'if':
            s.eat('if', '('); a = s.iexp(); s.eat('<'); b = s.iexp(); s.eat(')'); p = s.stmt(); q = ['.skip']
            if s.peek() == 'else': s.eat('else'); q = s.stmt()
            return [(f'.iflt {a} {b}', [p, q])]
        if w == 'micropp_t':
            s.eat('micropp_t', 'micro', '('); d = s.iexp(); s.eat(','); sz = s.use('ia', s.word()); s.eat(',')
            mt = s.iexp(); s.eat(','); mp = s.use('da', s.word()); s.eat(','); ty = s.use('ia', s.word()); s.eat(',')
            mat = s.use('da', s.word()); s.eat(')', ';')
            return [f'.ctor {d} {sz} {mt} {mp} {ty} {mat}']
        if w == 'micro':
            s.eat('micro', '.'); f = s.word(); s.eat('(')
            if f in ('set_macro_strain', 'get_macro_stress'):
                g = s.iexp(); s.eat(','); a = s.use('da', s.word())
                r = f'.{"setStrain" if f[0] == "s" else "getStress"} {g} {a}'
            elif f == 'output':
                g = s.iexp(); s.eat(','); r = f'.output {g} {s.iexp()}'
            else: r = {'homogenize': '.homogenize', 'update_vars': '.updateVars', 'write_info_files': '.writeInfo'}[f]
            s.eat(')', ';'); return [r]
        w = s.word()
        if s.peek() == '[':
            s.eat('['); k = s.iexp(); s.eat(']'); op = s.peek(); s.p += 1
            if any(sc.get(w) == 'ia' for sc in s.scopes):
                assert op == '='; r = f'.iput .{w} {k} {s.iexp()}'
            else:
                r = f'.{ {"=": "dput", "+=": "dadd", "-=": "dsub"}[op]} {s.use("da", w)} {k} {s.dexp()}'
            s.eat(';'); return [r]
        raise Exception((w, s.t[s.p:s.p + 6]))
    def block(s):
        r = []
        while s.peek() not in ('}', 'return', None): r += s.stmt()
        return r

def show(l, ind):
    """lines of a list of statements"""
    pad = '  ' * ind
    if not l: return [pad + '.skip']
    out = []
    for k, x in enumerate(l):
        if isinstance(x, str): r = [pad + x]
        else:
            r = [pad + x[0]]
            for b in x[1]:
                ls = show(b, ind + 1)
                r[-1] += ' ('
                r += ls; r[-1] += ')'
        if k + 1 < len(l): r[-1] += ' ;;'
        out += r
    return out

def cpp(f):
    t = open(f'{SRC}/{f}').read()
    t = re.sub(r'/\*.*?\*/', lambda m: '\n' * m.group().count('\n'), t, flags=re.S)
    t = re.sub(r'//[^\n]*', '', t)
    macros = dict(re.findall(r'^#define\s+(\w+)\s+(\d+)\s*$', t, re.M)); macros['MAX_MAT_PARAM'] = mx[0]
    for w in re.findall(r'^#(?!define\s+\w+\s+\d+\s*$|include)[^\n]*', t, re.M): raise Exception(w)
    m = re.search(r'^int main ?\(int argc, char \*(?:\*argv|argv\[\])\)\s*\{', t, re.M)
    i = m.end(); d = 1
    while d:
        d += {'{': 1, '}': -1}.get(t[i], 0); i += 1
    assert not t[i:].strip()
    a, b = t[:m.start()].count('\n') + 1, t[:i].count('\n') + 1
    p = P(re.findall(TOKRE, t[m.end():i - 1]), macros)
    pre = []
    while p.peek() != 'if': pre += p.stmt()
    p.eat('if', '(', 'argc', '<'); least = p.num(); p.eat(')', '{', 'cerr')
    while p.peek() != ';': p.p += 1
    p.eat(';', 'return', '('); bad = p.num(); p.eat(')', ';', '}')
    body = p.block(); p.eat('return'); ret = p.num(); p.eat(';'); assert p.peek() is None
    n = f[:-4]
    r = [f'/-- What `{f}` does before it counts its arguments: /repo/test/{f}:{a}-{b}. -/', f'def pre_{n} : Stm :='] + show(pre, 1) + ['']
    # the time loop on its own
    loops = [k for k, x in enumerate(body) if not isinstance(x, str)]; assert loops == [len(body) - 1], loops
    h, [lb] = body[-1]; assert h == '.forlt .t (.v .time_steps)', h
    r += [f'/-- The body of the time loop of `{f}`: /repo/test/{f}:{a}-{b}. -/', f'def step_{n} : Stm :='] + show(lb, 1) + ['']
    r += [f'/-- The time loop of `{f}`: /repo/test/{f}:{a}-{b}. -/', f'def loop_{n} : Stm := {h} step_{n}', '']
    r += [f'/-- `{f}` up to its time loop: /repo/test/{f}:{a}-{b}. -/', f'def init_{n} : Stm :='] + show(body[:-1], 1) + ['']
    r += [f'/-- `main` of `{f}`: /repo/test/{f}:{a}-{b}. -/', f'def p_{n} : Prog :=',
          f'  {{ pre := pre_{n}, least := {least}, bad := {bad}, body := init_{n} ;; loop_{n}, ret := {ret} }}', '']
    return r

def f90(f):
    L = open(f'{SRC}/{f}').read().split('\n')
    p = P([], {}); r = []; a = None; seen = set()
    KIND = {'integer': ('iv', 'ia'), 'real*8': ('dv', 'da')}
    def one(x):
        """an index of Fortran counts from 1"""
        return f'(.add {x} (.lit (-1)))'
    for n, x in enumerate(L, 1):
        x = re.sub(r'!.*', '', x).strip().rstrip(';').strip()
        if not x: continue
        if x.startswith('program '): a = n; continue
        if x == 'implicit none': continue
        m = re.fullmatch(r'(integer|real\*8)\s*(?:::)?\s*(.*)', x)
        if m:
            for y in re.findall(r'\w+(?:\(\d+\))?', m[2]):
                z = re.fullmatch(r'(\w+)(?:\((\d+)\))?', y)
                if z[2]:
                    p.decl(KIND[m[1]][1], z[1]); r.append(f'.{KIND[m[1]][1][0]}decl .{z[1]} (.lit {z[2]})')
                else: p.decl(KIND[m[1]][0], z[1])
            continue
        m = re.fullmatch(r'call micropp_construct\((\w+), (\w+), (\w+), (\w+), (\w+), (\w+)\)', x)
        if m:
            r.append(f'.ctor (.v {p.use("iv", m[1])}) {p.use("ia", m[2])} (.v {p.use("iv", m[3])}) {p.use("da", m[4])} {p.use("ia", m[5])} {p.use("da", m[6])}')
            b = n; break
        m = re.fullmatch(r'(\w+)(?:\((.*)\))?\s*=\s*(.*)', x); assert m, x
        if m[2]:
            q = P(re.findall(TOKRE, m[2]), {}); k = one(q.iexp()); assert q.peek() is None
            q = P(re.findall(TOKRE, m[3]), {})
            if m[1] in p.scopes[0] and p.scopes[0][m[1]] == 'ia': e = q.iexp(); r.append(f'.iput .{m[1]} {k} {e}')
            else: e = q.dexp(); r.append(f'.dput {p.use("da", m[1])} {k} {e}')
        else:
            q = P(re.findall(TOKRE, m[3]), {}); r.append(f'.iset {p.use("iv", m[1])} {q.iexp()}')
        assert q.peek() is None, x
    n = f[:-4]
    return [f'/-- `{f}` up to the call of `micropp_construct`: /repo/test/{f}:{a}-{b}. -/', f'def p_{n} : Stm :='] + show(r, 1) + ['']

o = ['import Verif.Model.MainText', '', '/-!', '# The text of the programs in /repo/test', '',
     'Generated by `tools/gen_main.py`.', '-/', '', 'namespace Verif.MainText', '']
for f in ('test2d_1.cpp', 'test3d_1.cpp', 'test3d_7.cpp', 'test3d_8.cpp'): o += cpp(f)
o += f90('test3d_3.f90')
o += ['end Verif.MainText', '']
open(OUT + '/MainTable.lean', 'w').write('\n'.join(o))
