"""Extract the bodies of functions of /repo/src/{assembly,ell,solve,homogenize,micro}.cpp as syntax trees:
lean/Verif/Model/TextNames.lean (variables, functions, parameters), lean/Verif/Model/TextTable.lean (bodies),
lean/Verif/Model/ObjTable.lean (bodies of the second layer) and lean/Verif/Model/FileTable.lean (output.cpp and the
files of the constructor).

Tokens, macros and the parser are those of gen_sites.py (macros expanded as the preprocessor does).  The trees are
typed here: int and bool expressions, double expressions, tests.  `x op= e` is written `x = x op e`; a pointer to a
scalar is written as the scalar (passed by reference); `material.f`, `m->f`, `solver->f` are the variables
`material_f`, `m_f`, `solver_f`.  In ell.cpp: `mvals` is the constant pointer `m->vals`; `mcols = &(m->cols[e])` is
the offset `mcols`, and `mcols[i]` the entry `mcols + i` of `m->cols`; `for (auto l : tmp)` runs over the indices of
`tmp`; `do { A; if (b) break; D } while (c)` is one construct, and `while (c) { A; if (b) break; D }` is an if around it;
`while (i < n) { A; i++; }` is a for loop (i is not used after it); a test for NULL in front of a return is left out (arrays
have no NULL here); constant matrices of numbers are tables.  The script stops on anything else: a name declared twice
in nested scopes with the same type, a return that is not the last statement, a for loop whose body assigns its counter
or a variable of its bound, an unknown expression.

Second layer (newton_raphson, homogenize.cpp, micro.cpp): a call whose value is used is made before the statement and
its value is the variable `t_<function>`, the value of a function is its last parameter `ret`; the fields of the Gauss
point `gp` are the variables `g_<field>`, a pointer field is 0 for NULL and 1 otherwise, its block has the same name;
`*its++` moves the pointer, not the number: `its_off` counts the moves and the value read through it is
`its_past`; `solve()` and that read are events of their own; `assert` is a test in front of an abort; the unused local
`rad` and the output to `cerr` are left out; `ctan_lin` in `calc_ctan_lin` and `elem_type` in the constructor are local
arrays, elsewhere members.

Constructor: the initialisers are assignments to variables with the names of the members, in the order in which
/repo/include/micro.hpp declares the members; `c ? a : b` is an if; the parameter `_x` is the variable `a_x`.  In the
body `micro_params`, `numMaterials`, `elem_type` are variables and `material_list[i].f` is entry i of the array `ml_f`;
the assertion that no malloc failed is left out.

Files (output.cpp, constructor): `file << a << b` is one statement with its list of operands; `setw`, `scientific` are
left out (no formatting here); a string literal of at most four characters is cut at its spaces and written as an int
if it has digits only (`" 0.0"` is `" "`, `"0.0"`; `"9 "` is 9, `" "`), which gives the same characters; `c ? a : b`
is an if; the name of a file is a constant of the enumeration or the pair of numbers in `micropp_<a>_<b>.vtu`;
`vars_old != NULL` is true; `output_files_header` is a variable.
"""
import re, os, sys
HERE = os.path.dirname(os.path.abspath(__file__))
src = open(HERE + '/gen_sites.py').read()
exec(src[:src.index('def parse_expr')].split('"""', 2)[2])     # lexer, macros, parser
SRC = os.environ.get('SITES_SRC', '/repo/src') + '/%s.cpp'
HDR = os.environ.get('SITES_INC', '/repo/include') + '/micro.hpp'
OUT = os.environ.get('TEXT_OUT', HERE + '/../lean/Verif/Model')

def brace(s):
    s.eat('{'); c = []
    while s.pk() != '}':
        c.append(s.brace() if s.pk() == '{' else s.asg())
        if s.pk() == ',': s.nx()
    s.nx(); return ('list', c)
P.brace = brace
P.post0 = P.post
def post(s):
    if s.pk()[0] != '"': return s.post0()
    x = ''
    while s.pk() and s.pk()[0] == '"': x += s.nx()[1:-1]
    return ('str', x)
P.post = post
P.stmt0 = P.stmt
def stmt(s):
    if s.pk() == 'break': s.nx(); s.eat(';'); return ('brk',)
    if s.pk() == 'while': s.nx(); s.eat('('); c = s.expr(); s.eat(')'); return ('while', s.stmt(), c)
    if s.pk() == 'for' and s.pk(2) == 'auto':
        n = s.ln(); s.nx(); s.nx(); s.nx()
        while s.pk() in ('const', '&'): s.nx()
        v = s.nx(); s.eat(':'); a = s.nx(); s.eat(')'); return ('each', v, a, s.stmt(), n)
    if s.pk() == 'for' and s.pk(2) == 'gp':
        n = s.ln(); s.nx(); s.eat('('); G = ('var', 'gauss_list'); g = ('var', 'gp'); i = s.expr(); s.eat(';'); c = s.expr(); s.eat(';'); t = s.expr(); s.eat(')')
        assert i[:3] == ('asg', '=', g) and i[3][:3] == ('call', ('mem', G, 'begin'), []) and t == ('un', '++', g)
        assert c[:3] == ('bin', '!=', g) and c[3][:3] == ('call', ('mem', G, 'end'), [])
        return ('each', 'gp', 'gauss_list', s.stmt(), n)
    return s.stmt0()
P.stmt = stmt
def sizes(toks):
    """the length of `x[] = {..}`; `const` after `*` dropped"""
    out = []; toks = [t for i, t in enumerate(toks) if not (t[0] == 'const' and toks[i-1][0] == '*')]
    for i, (t, n) in enumerate(toks):
        if t == ']' and toks[i-1][0] == '[' and toks[i+1][0] == '=':
            j = i + 2; c = 1; assert toks[j][0] == '{'
            while toks[j][0] != '}': c += toks[j][0] == ','; j += 1
            out.append((str(c), n))
        out.append((t, n))
    return out

GI = ['dim', 'nx', 'ny', 'nz', 'nn', 'npe', 'nvoi', 'nelem', 'micro_type', 'num_int_vars']
GD = ['lx', 'ly', 'lz', 'dx', 'dy', 'dz', 'width']
GA = ['u', 'du', 'b', 'elem_stress', 'elem_strain', 'vars_old', 'vars_new']
MATD = ['E', 'nu', 'k', 'mu', 'lambda', 'Ka', 'Sy']; MATI = ['plasticity', 'damage']
ELLI = ['nrow', 'ncol', 'nnz']; SOLI = ['max_its', 'its']; SOLD = ['min_tol', 'err']
GP = dict(id='i', nr_its='iv', int_vars_n='gpp', int_vars_k='gpp', macro_strain='v', macro_stress='v', macro_ctan='v', nr_err='v', inv_max='d')
CONST.update(CG_MAX_TOL='1.0e-8', NR_MAX_TOL='1.0e-5')
for l in ('#define CG_MAX_TOL 1.0e-8', '#define CG_MAX_ITS 2000', '#define NR_MAX_TOL 1.0e-5', '#define NR_MAX_ITS 40'): assert l in open(SRC % 'solve').read()
FILES = {'assembly': None, 'solve': ['solve'],
         'ell': ['ell_set_zero_mat', 'ell_mvp_2D', 'ell_solve_jacobi_2D', 'ell_solve_cgpd_2D', 'ell_solve_cgpd_struct', 'ell_add_struct2D',
                 'ell_add_struct3D', 'ell_set_bc_2D', 'ell_set_bc_3D', 'ell_init_2D', 'ell_init_3D']}

V = []
def var(x):
    x = {'lambda': 'lam'}.get(x, x)
    if x not in V: V.append(x)
    return '.' + x
def fld(f): return 'lam' if f == 'lambda' else f
for f in MATD + MATI: var('material_' + fld(f))
for f in ELLI + ['cols', 'vals']: var('m_' + f)
for f in SOLI + SOLD: var('solver_' + f)
var('ret')

FUNS = []; PARAM = {}
def fkey(name, n): return {('getElemDisp', 3): 'getElemDisp2', ('getElemDisp', 4): 'getElemDisp3'}.get((name, n), name)

def const(e):
    k = e[0]
    if k == 'lit': return int(e[1])
    assert k == 'bin' and e[1] == '*', e
    return const(e[2]) * const(e[3])

def assigned(st):
    """scalars assigned in a statement"""
    k = st[0]
    if k == 'blk': return set().union(*[assigned(x) for x in st[1]]) if st[1] else set()
    if k == 'for': return {st[1]} | assigned(st[4])
    if k == 'if': return assigned(st[2]) | (assigned(st[3]) if st[3] else set())
    if k == 'decl': return {d[0] for d in st[2]}
    if k == 'each': return {st[1]} | assigned(st[3])
    if k in ('do', 'while'): return assigned(st[1])
    if k == 'brk': return set()
    if k == 'expr':
        e = st[1]
        if e[0] == 'asg': return {root(e[2])}
        if e[0] == 'post': return {root(e[2])}
        if e[0] == 'call' and e[1][1] == 'free': return {e[2][0][1]}
        if isfile(st): return set()
        if e[0] == 'call':
            return {(a[2] if a[0] == 'un' and a[1] == '&' else a)[1] for a, q in zip(e[2], PARAM[fkey(e[1][1], len(e[2]))]) if q[1] not in 'id'}
    if k == 'ret': return set()
    raise Exception(st)
def isfile(st):
    """file << .., file.open(..), file.close(), ofstream file"""
    if st[0] == 'decl': return st[1] == 'ofstream'
    if st[0] != 'expr': return False
    e = st[1]
    if e[0] == 'call' and e[1][:2] == ('mem', ('var', 'file')): return True
    while e[:2] == ('bin', '<<'): e = e[2]
    return e == ('var', 'file')
def root(e):
    if e[0] == 'var': return e[1]
    if e[0] == 'mem' and e[1] in (('var', 'm'), ('var', 'solver')): return e[1][1] + '.' + e[2]
    if e[0] == 'idx' or e[0] == 'mem': return root(e[1])
    if e[0] == 'un' and e[1] == '*': return root(e[2])
    if e[0] == 'post': return root(e[2])
    raise Exception(e)
def names(e):
    if e[0] == 'var': return {e[1]}
    if e[0] == 'mem' and e[1] in (('var', 'm'), ('var', 'solver')): return {e[1][1] + '.' + e[2]}
    return set().union(*[names(x) for x in e if isinstance(x, tuple)]) if any(isinstance(x, tuple) for x in e) else set()

def flat(e): return [e] + [y for x in e for y in flat(x)] if isinstance(e, tuple) else []
TABS = []

class T:
    len = {}; ctor = False
    def off(s, e):
        """&(m->cols[e])"""
        assert e[:2] == ('un', '&') and e[2][0] == 'idx' and e[2][1] == ('mem', ('var', 'm'), 'cols'), e
        return e[2][2]
    def msize(s, e):
        """malloc(e * sizeof(..))"""
        assert e[0] == 'call' and e[1] == ('var', 'malloc') and len(e[2]) == 1, e
        [a] = e[2]; assert a[:2] == ('bin', '*') and a[3] == ('sizeof',), e
        return a[2]
    def __init__(s, name, params, body):
        s.env = {}; s.name = name; s.free = name.startswith('ell_'); s.tab = {}
        for (v, k, n) in params: s.env[v] = k
    # kinds: 'i' int or bool scalar, 'd' double scalar, 'v' double array, 'm' double matrix, 'iv' int array, 'mat' struct
    def kind(s, e):
        k = e[0]
        if k == 'lit': return 'i' if re.fullmatch(r'\d+', e[1]) else 'd'
        if k == 'var':
            v = e[1]
            if v in ('true', 'false'): return 'i'
            if v in s.env: return s.env[v]
            assert not s.free, (s.name, v)
            if v in GI: return 'i'
            if v in GD: return 'd'
            if v in GA: return 'ga'
            if v == 'elem_type': return 'et'
            if v in ('inv_max', 'inv_tol'): return 'd'
            if v == 'ctan_lin': return 'cl'
            if v == 'material_list': return 'ml'
        if k == 'un': return s.kind(e[2]) if e[1] != '*' else s.kind(e[2])
        if k == 'bin':
            a, b = s.kind(e[2]), s.kind(e[3])
            assert a in 'id' and b in 'id', e
            return 'i' if a == b == 'i' else 'd'
        if k == 'idx':
            a = s.kind(e[1])
            return {'gpp': 'd', 'cl': 'd', 'im': 'imrow', 'imrow': 'i', 'ptr': 'i', 'v': 'd', 'm': 'row', 'row': 'd', 'iv': 'i', 'ga': 'd', 'et': 'i', 'ml': 'mle'}[a]
        if k == 'mem':
            if s.kind(e[1]) == 'gp': return GP[e[2]]
            if s.kind(e[1]) == 'ell': return {'cols': 'iv', 'vals': 'v'}.get(e[2], 'i')
            if s.kind(e[1]) == 'solver': return 'd' if e[2] in SOLD else 'i'
            assert s.kind(e[1]) in ('mat', 'mle'), e
            return 'd' if e[2] in MATD else 'i'
        if k == 'call' and e[1] in (('var', 'sqrt'), ('var', 'fabs')): return 'd'
        raise Exception((s.name, e))
    def arr(s, e):
        """an array: a variable, m->cols, m->vals, or mvals"""
        if e == ('var', 'mvals'): return var('m_vals')
        if e[0] == 'mem' and s.kind(e[1]) == 'gp': return var('g_' + e[2])
        if e[0] == 'mem': assert e[1] == ('var', 'm'); return var('m_' + e[2])
        return var(e[1])
    def I(s, e):
        assert s.kind(e) == 'i', e
        k = e[0]
        if k == 'lit': return f'(.lit {e[1]})'
        if k == 'var':
            if e[1] in ('true', 'false'): return f'(.lit {int(e[1] == "true")})'
            if e[1] in s.env: return f'(.var {var(e[1])})'
            return f'(.mem .{e[1]})'
        if k == 'un' and e[1] == '*': return f'(.var {var(e[2][1])})'
        if k == 'un' and e[1] == '-' and e[2][0] == 'lit': return f'(.lit (-{e[2][1]}))'
        if k == 'bin': return f'(.{ {"+": "add", "-": "sub", "*": "mul", "%": "mod"}[e[1]]} {s.I(e[2])} {s.I(e[3])})'
        if k == 'idx' and s.kind(e[1]) == 'iv': return f'(.rd {s.arr(e[1])} {s.I(e[2])})'
        if k == 'idx' and s.kind(e[1]) == 'imrow': return f'(.tab {s.tab[e[1][1][1]]} {s.I(e[1][2])} {s.I(e[2])})'
        if k == 'idx' and s.kind(e[1]) == 'et': return f'(.elemType {s.I(e[2])})'
        if k == 'mem':
            if s.kind(e[1]) == 'gp': return f'(.var {s.arr(e)})'
            if s.kind(e[1]) == 'mat': return f'(.var {var("material_" + e[2])})'
            if s.kind(e[1]) in ('ell', 'solver'): return f'(.var {var(e[1][1] + "_" + e[2])})'
            assert not s.ctor
            return f'(.mat{e[2].capitalize()} {s.I(e[1][2])})'
        raise Exception(e)
    def D(s, e):
        if s.kind(e) == 'i': return f'(.ofInt {s.I(e)})'
        assert s.kind(e) == 'd', e
        k = e[0]
        if k == 'lit':
            m = re.fullmatch(r'(\d+)\.(\d*)(?:[eE]([-+]?\d+))?', e[1])
            ex = len(m.group(2)) - int(m.group(3) or 0)
            if ex < 0: return f'(.lit (nat_lit {int(m.group(1) + m.group(2))}) false (nat_lit {-ex}))'
            return f'(.lit (nat_lit {int(m.group(1) + m.group(2))}) true (nat_lit {ex}))'
        if k == 'var':
            if e[1] in ('inv_max', 'inv_tol') and e[1] not in s.env: return '.' + {'inv_max': 'invMax', 'inv_tol': 'invTol'}[e[1]]
            return f'(.var {var(e[1])})' if e[1] in s.env else f'(.mem .{e[1]})'
        if k == 'un':
            if e[1] == '*': return f'(.var {var(e[2][1])})'
            if e[1] == '+': return s.D(e[2])
            assert e[1] == '-'
            return f'(.neg {s.D(e[2])})'
        if k == 'bin': return f'(.{ {"+": "add", "-": "sub", "*": "mul", "/": "div"}[e[1]]} {s.D(e[2])} {s.D(e[3])})'
        if k == 'idx':
            a = s.kind(e[1])
            if a in ('v', 'gpp'): return f'(.rd1 {s.arr(e[1])} {s.I(e[2])})'
            if a == 'cl': return f'(.ctanLin {s.I(e[2])})'
            if a == 'row': return f'(.rd2 {var(e[1][1][1])} {s.I(e[1][2])} {s.I(e[2])})'
            if a == 'ga': return f'(.memRd .{e[1][1]} {s.I(e[2])})'
        if k == 'mem':
            if s.kind(e[1]) == 'gp': return f'(.var {s.arr(e)})'
            if s.kind(e[1]) == 'mat': return f'(.var {var("material_" + fld(e[2]))})'
            if s.kind(e[1]) == 'solver': return f'(.var {var("solver_" + e[2])})'
            if s.ctor: return f'(.rd1 {var("ml_" + fld(e[2]))} {s.I(e[1][2])})'
            return f'(.mat {s.I(e[1][2])} .{fld(e[2])})'
        if k == 'call': return f'(.{ {"sqrt": "sqrt", "fabs": "abs"}[e[1][1]]} {s.D(e[2][0])})'
        raise Exception(e)
    def null(s, e):
        """a pointer of a gp_t"""
        assert s.kind(e) == 'gpp', e
        return f'(.eqI (.var {s.arr(e)}) (.lit 0))'
    def B(s, e):
        if e[0] == 'un' and e[1] == '!': return s.null(e[2])
        assert e[0] == 'bin'
        if e[1] == '&&': return f'(.and {s.B(e[2])} {s.B(e[3])})'
        if e[1] == '==' and e[3] == ('var', 'NULL'): return s.null(e[2])
        o = e[1]; ki = s.kind(e[2]) == s.kind(e[3]) == 'i'
        if ki:
            if o == '==': return f'(.eqI {s.I(e[2])} {s.I(e[3])})'
            if o == '<': return f'(.ltI {s.I(e[2])} {s.I(e[3])})'
            if o == '>': return f'(.ltI {s.I(e[3])} {s.I(e[2])})'
        else:
            if o == '<': return f'(.ltD {s.D(e[2])} {s.D(e[3])})'
            if o == '>': return f'(.ltD {s.D(e[3])} {s.D(e[2])})'
        raise Exception(e)
    def seq(s, l):
        l = [x for x in l if x]
        return ' ;;\n'.join(l) if l else ' ' * 8 + '.skip'
    def S(s, st, ind, last=False):
        """list of Lean statements"""
        k = st[0]; pad = '  ' * ind
        if s.ctor and isfile(st): return []
        if k == 'blk':
            save = dict(s.env); out = []
            for j, x in enumerate(st[1]): out += s.S(x, ind, last and j + 1 == len(st[1]))
            s.env = save; return out
        if k == 'for':
            _, v, lo, hi, body, n = st
            assert s.env.get(v, 'd') == 'd', (s.name, v)
            a = assigned(body)
            assert v not in a and not (names(hi) & a), (s.name, n)
            lo, hi = s.I(lo), s.I(hi)
            save = dict(s.env); s.env[v] = 'i'; b = s.S(body, ind + 1); s.env = save
            return [f'{pad}.for {var(v)} {lo} {hi} (\n' + s.seq(b) + ')']
        if k == 'each':
            _, v, t, body, n = st
            assert v not in s.env and s.env[t] == 'iv' and not assigned(body) & {v, t}
            save = dict(s.env); s.env[v] = 'i'; b = s.S(body, ind + 1); s.env = save
            return [f'{pad}.for {var("it_" + v)} (.lit 0) (.lit {s.len[t]}) (\n' + s.seq([f'{pad}  .setI {var(v)} (.rd {var(t)} (.var {var("it_" + v)}))'] + b) + ')']
        if k == 'while' and not any(x[0] == 'if' and x[2] == ('brk',) for x in st[1][1]):
            _, body, c = st; v = c[2][1]; l = body[1]
            assert c[:3] == ('bin', '<', ('var', v)) and s.env[v] == 'i' and l[-1][:2] == ('expr', ('post', '++', c[2]))
            a = assigned(('blk', l[:-1])); assert v not in a and not names(c[3]) & a
            hi = s.I(c[3]); save = dict(s.env); b = s.seq([y for x in l[:-1] for y in s.S(x, ind + 1)]); s.env = save
            del s.env[v]
            return [f'{pad}.for {var(v)} (.var {var(v)}) {hi} (\n{b})']
        if k in ('do', 'while'):
            _, body, c = st; l = body[1]
            [j] = [j for j, x in enumerate(l) if x[0] == 'if' and x[2] == ('brk',) and x[3] is None]
            assert c[:2] == ('bin', '<') and l[-1] == ('expr', ('post', '++', c[2]), l[-1][2])
            assert c[2][1] not in assigned(('blk', l[:-1])) and not names(c[3]) & assigned(body)
            save = dict(s.env)
            a = s.seq([y for x in l[:j] for y in s.S(x, ind + 1)]); b = s.B(l[j][1])
            d = s.seq([y for x in l[j+1:] for y in s.S(x, ind + 1)]); s.env = save
            r = f'.doW {s.I(c[3])} (\n{a}) {b} (\n{d}) {s.B(c)}'
            return [f'{pad}{r}' if k == 'do' else f'{pad}.ite {s.B(c)} (\n{pad}  {r}) .skip']
        if k == 'if' and st[1][:2] == ('bin', '!=') and st[1][3] == ('var', 'NULL') and s.kind(st[1][2]) == 'gpp':
            return s.S(('if', ('un', '!', st[1][2]), st[3] or ('blk', []), st[2], st[4]), ind)
        if k == 'if' and s.free and st[1][:2] == ('bin', '!=') and st[3] is None:
            return s.S(('if', ('bin', '==') + st[1][2:], ('blk', []), st[2], st[4]), ind)
        if k == 'if' and ('var', 'NULL') in flat(st[1]) and s.free:
            assert st[2][0] == 'ret' and st[3] is None; return []
        if k == 'if':
            _, c, a, b, n = st
            x = s.seq(s.S(a, ind + 1)); y = s.seq(s.S(b, ind + 1)) if b else '  ' * (ind + 1) + '.skip'
            return [f'{pad}.ite {s.B(c)} (\n{x}) (\n{y})']
        if k == 'decl':
            ty, ds, n = st[1:]; out = []
            for (v, dims, star, init) in ds:
                assert v not in s.env and (s.free or v not in GI + GD + GA), (s.name, v)
                if star and v == 'mvals': assert init == ('mem', ('var', 'm'), 'vals'); s.env[v] = 'v'; continue
                if star and v == 'mcols':
                    s.env[v] = 'ptr'
                    if init == ('var', 'NULL'): out.append(f'{pad}.declI {var(v)}')
                    else: out.append(f'{pad}.setI {var(v)} {s.I(s.off(init))}')
                    continue
                if star: s.env[v] = 'v'; out.append(f'{pad}.malloc {var(v)} {s.I(s.msize(init))}'); continue
                if ty == 'ell_solver': s.env[v] = 'solver'; assert v == 'solver'; out.append(f'{pad}.declSolver'); continue
                if ty == 'material_t': s.env[v] = 'mat'; assert v == 'material'; out.append(f'{pad}.declMat'); continue
                if dims:
                    sz = [const(d) for d in dims]; kd = {1: 'v', 2: 'm'}[len(dims)] if ty == 'double' else 'iv'
                    if ty == 'int' and len(dims) == 2:
                        assert all(x[0] == 'lit' for r in init[1] for x in r[1])
                        TABS.append((f'c_{v}_{s.name}', [[int(x[1]) for x in r[1]] for r in init[1]], n)); s.tab[v] = TABS[-1][0]; kd = 'im'
                        assert len(init[1]) == sz[0] and all(len(r[1]) == sz[1] for r in init[1])
                        s.env[v] = kd; continue
                    s.env[v] = kd
                    if kd == 'iv': s.len[v] = sz[0]
                    if init and kd == 'iv':
                        assert init[0] == 'list' and len(init[1]) == sz[0]
                        out.append(f'{pad}.initIV {var(v)} [' + ', '.join(s.I(x) for x in init[1]) + ']')
                    elif init:
                        assert init[0] == 'list' and len(init[1]) == sz[0]
                        if kd == 'v': out.append(f'{pad}.initV {var(v)} [' + ', '.join(s.D(x) for x in init[1]) + ']')
                        else:
                            assert all(len(r[1]) == sz[1] for r in init[1])
                            out.append(f'{pad}.initM {var(v)} {sz[1]} [' + ',\n      '.join('[' + ', '.join(s.D(x) for x in r[1]) + ']' for r in init[1]) + ']')
                    else: out.append(f'{pad}.{ {"v": "declV", "m": "declM", "iv": "declIV"}[kd]} {var(v)} ' + ' '.join(map(str, sz)))
                else:
                    kd = 'd' if ty == 'double' else 'i'
                    if init:
                        x = s.D(init) if kd == 'd' else s.I(init)
                        out.append(f'{pad}.set{kd.upper()} {var(v)} {x}')
                    else: out.append(f'{pad}.decl{kd.upper()} {var(v)}')
                    s.env[v] = kd
            return out
        if k == 'ret':
            assert last, s.name
            kd = 'I' if s.free else 'D'
            return [f'{pad}.set{kd} .ret {(s.I if s.free else s.D)(st[1])}']
        if k == 'expr':
            e = st[1]
            if e[0] == 'post':
                assert e[1] == '++'; e = ('asg', '+=', e[2], ('lit', '1'), 0)
            if e[0] == 'asg' and e[2] == ('var', 'mcols'): return [f'{pad}.setI .mcols {s.I(s.off(e[3]))}']
            if e[0] == 'asg' and e[2][0] == 'mem' and s.kind(e[2][1]) == 'gp':
                l, r = e[2], e[3]; x = s.arr(l); assert e[1] == '='
                if s.kind(l) == 'gpp' and r == ('var', 'NULL'): return [f'{pad}.setI {x} (.lit 0)']
                if s.kind(l) == 'gpp': return [f'{pad}.malloc {x} {s.I(s.msize(r))}', f'{pad}.setI {x} (.lit 1)']
                return [f'{pad}.set{s.kind(l).upper()} {x} {s.D(r) if s.kind(l) == "d" else s.I(r)}']
            if e[0] == 'asg' and e[2][0] == 'mem' and s.kind(e[2][1]) in ('ell', 'solver'):
                l, r = e[2], e[3]; x = var(l[1][1] + '_' + l[2]); assert e[1] == '='
                if l[2] in ('cols', 'vals'): return [f'{pad}.malloc{"I" if l[2] == "cols" else ""} {x} {s.I(s.msize(r))}']
                return [f'{pad}.set{s.kind(l).upper()} {x} {s.D(r) if s.kind(l) == "d" else s.I(r)}']
            if e[0] == 'asg':
                l, r = e[2], e[3]
                if e[1] != '=': r = ('bin', e[1][0], l, r, 0)
                kd = s.kind(l)
                if l[0] == 'un' and l[1] == '*': l = l[2]
                if l[0] == 'var' and l[1] in s.env:
                    return [f'{pad}.set{kd.upper()} {var(l[1])} {s.D(r) if kd == "d" else s.I(r)}']
                if l[0] == 'mem' and s.ctor:
                    assert l[1][:2] == ('idx', ('var', 'material_list'))
                    x = var("ml_" + fld(l[2])); i = s.I(l[1][2])
                    return [f'{pad}.st1 {x} {i} {s.D(r)}' if kd == 'd' else f'{pad}.stI {x} {i} {s.I(r)}']
                if l[0] == 'mem':
                    assert s.kind(l[1]) == 'mat'
                    return [f'{pad}.set{kd.upper()} {var("material_" + fld(l[2]))} {s.D(r) if kd == "d" else s.I(r)}']
                if l[0] == 'idx':
                    a = s.kind(l[1])
                    if a in ('v', 'gpp'): return [f'{pad}.st1 {s.arr(l[1])} {s.I(l[2])} {s.D(r)}']
                    if a == 'ptr': return [f'{pad}.stI .m_cols (.add (.var .mcols) {s.I(l[2])}) {s.I(r)}']
                    if a == 'row': return [f'{pad}.st2 {var(l[1][1][1])} {s.I(l[1][2])} {s.I(l[2])} {s.D(r)}']
                    if a == 'iv': return [f'{pad}.stI {s.arr(l[1])} {s.I(l[2])} {s.I(r)}']
                    if a == 'ga': return [f'{pad}.memSt .{l[1][1]} {s.I(l[2])} {s.D(r)}']
                raise Exception(e)
            if e[0] == 'call' and e[1][1] == 'free': assert s.env[e[2][0][1]] == 'v'; return [f'{pad}.free {var(e[2][0][1])}']
            if e[0] == 'call': return [f'{pad}.call ' + s.args(e)]
        raise Exception(st)
    def args(s, e):
                f = fkey(e[1][1], len(e[2])); assert f in PARAM, (s.name, f)
                out = []
                for a, (pv, pk, n) in zip(e[2], PARAM[f]):
                    if pk == 'i': out.append(f'.i {s.I(a)}')
                    elif pk == 'd': out.append(f'.d {s.D(a)}')
                    elif a == ('un', '&', ('var', 'A')): assert pk == 'ell' and not s.free; out.append('.A')
                    elif pk == 'v' and a[0] == 'var' and a[1] not in s.env: assert a[1] in GA and not s.free; out.append(f'.mem .{a[1]}')
                    else:
                        if a[0] == 'un' and a[1] == '&': a = a[2]
                        if a[0] == 'mem' and s.kind(a[1]) == 'gp': assert pk == 'v' == s.kind(a); out.append(f'.ref {s.arr(a)}'); continue
                        if pk in ('ell', 'solver'): assert a == ('var', {'ell': 'm'}.get(pk, pk)) and s.env[a[1]] == pk; out.append('.' + pk); continue
                        assert a[0] == 'var' and s.env[a[1]] == {'ri': 'i', 'rd': 'd'}.get(pk, pk), (s.name, f, a)
                        out.append('.mat' if pk == 'mat' else f'.ref {var(a[1])}')
                assert len(e[2]) == len(PARAM[f])
                return f'.{f} [' + ', '.join(out + s.back) + ']'
    back = []

BODIES = []; OBODIES = []; INITS = {}
OFILES = {'solve': ['newton_raphson'], 'homogenize': None, 'micro': ['get_nl_flag', 'get_elem_type2D', 'get_elem_type3D', 'micropp_t'], 'output': None}
for dst, file, only in [(BODIES, f, o) for f, o in FILES.items()] + [(OBODIES, f, o) for f, o in OFILES.items()]:
    text = uncomment(open(SRC % file).read()).split('\n')
    toks = expand(sizes(lex(text))); p = P(toks)
    while True:
        while p.p < len(toks) and '::' not in p.pk() and not (p.pk().startswith('ell_') and p.pk(1) == '('): p.nx()
        if p.p >= len(toks): break
        line = p.ln(); name = p.nx().split('::')[-1]
        if only is not None and name not in only:
            while p.pk() != '{': p.nx()
            d = 0
            while True:
                x = p.nx(); d += (x == '{') - (x == '}')
                if d == 0: break
            continue
        p.eat('('); params = []
        while p.pk() != ')':
            while p.pk() == 'const': p.nx()
            ty = p.nx(); ptr = False; ref = False; dims = []
            if p.pk() == '(': p.nx(); p.eat('&'); v = p.nx(); p.eat(')'); ptr = True
            else:
                while p.pk() in ('*', '&'): ptr = ptr or p.pk() == '*'; ref = ref or p.pk() == '&'; p.nx()
                v = p.nx()
            while p.pk() == '[': p.nx(); dims.append(const(p.expr())); p.eat(']'); ptr = True
            params.append((v, ty, dims, ptr, ref))
            if p.pk() == ',': p.nx()
        p.eat(')')
        if name == 'micropp_t':
            p.eat(':')
            while True:
                x = p.nx(); p.eat('('); INITS[x] = p.expr(); p.eat(')')
                if p.pk() != ',': break
                p.nx()
            iend = p.t[p.p - 1][1]; assert p.pk() == '{'
        while p.pk() != '{': p.nx()
        body = p.stmt(); end = p.t[p.p - 1][1]
        dst.append((name, params, body, line, end, file))

def uses_star(e, v):
    if isinstance(e, tuple) and e[:3] == ('un', '*', ('var', v)): return True
    return isinstance(e, (tuple, list)) and any(uses_star(x, v) for x in e)
for name, params, body, line, end, file in BODIES + OBODIES:
    ks = []
    for (v, ty, dims, ptr, ref) in params:
        if ty == 'material_t': kd = 'mat'; assert v == 'material'
        elif ty == 'ell_matrix': kd = 'ell'; assert v == 'm' and ptr
        elif ty == 'ell_solver': kd = 'solver'; assert v == 'solver' and ptr
        elif ty == 'int' or ty == 'bool': kd = 'ri' if ptr else 'i'
        elif not ptr: kd = 'd'
        elif len(dims) == 2: kd = 'm'
        elif not dims and uses_star(body, v): kd = 'rd'
        else: kd = 'v'
        ks.append((v, kd, dims))
    f = fkey(name, len(params)); PARAM[f] = ks
    if (name, params, body, line, end, file) in BODIES: FUNS.append(f)
DEFS = []
for name, params, body, line, end, file in BODIES:
    f = fkey(name, len(params))
    t = T(f, [(v, {'ri': 'i', 'rd': 'd'}.get(k, k), n) for v, k, n in PARAM[f]], body)
    b = t.S(body, 1, True)
    for v, k, n in PARAM[f]:
        if k not in ('mat', 'ell', 'solver'): var(v)
    DEFS.append((f, line, end, t.seq(b), file))

# ---------------------------------------------------------------------------------------------------------------------
# functions that count events, return in branches, or run over the list of Gauss points
RET = {'assembly_rhs': 'rd', 'is_linear': 'ri', 'get_inv_1': 'rd', 'get_inv_2': 'rd', 'get_elem_type2D': 'ri', 'get_elem_type3D': 'ri'}
OFUNS = ['newton_raphson', 'calc_ctan_lin', 'is_linear', 'get_inv_1', 'get_inv_2', 'get_elem_type2D', 'get_elem_type3D', 'fill_elem_type']
TFUNS = ['homogenize', 'set_macro_strain', 'get_macro_stress', 'get_macro_ctan', 'update_vars', 'get_nl_flag']
def calls(e): return [x for x in flat(e) if x[0] == 'call' and x[1][0] == 'var' and x[1][1] not in ('fabs', 'sqrt')]
def stmts(st):
    """all statements in a statement"""
    k = st[0]
    sub = {'blk': lambda: st[1], 'for': lambda: [st[4]], 'each': lambda: [st[3]], 'do': lambda: [st[1]], 'while': lambda: [st[1]], 'if': lambda: [x for x in st[2:4] if x]}
    return [st] + [y for x in sub.get(k, lambda: [])() for y in stmts(x)]
def exprs(st):
    return [x for x in st if isinstance(x, tuple) and st[0] in ('expr', 'ret')] + ([st[1]] if st[0] == 'if' else []) + \
           ([d[3] for d in st[2] if d[3]] if st[0] == 'decl' else []) + ([st[2]] if st[0] == 'do' else [])

class OT(T):
    def high(s, st):
        """a statement that Stmt cannot express"""
        for x in stmts(st):
            if x[0] in ('do', 'ret'): return True
            for e in exprs(x):
                if any(c[1][1] in OFUNS + ['solve', 'assert'] + list(RET) for c in calls(e)): return True
                if e[0] == 'asg' and e[2] == ('var', 'inv_max'): return True
                if e[:2] == ('un', '*') and e[2][:2] == ('post', '++'): return True
                if e[0] == 'asg' and e[3][:2] == ('bin', '!='): return True
        return False
    def ojoin(s, items, pad):
        """items: ('b', text) or ('o', text)"""
        out = []; cur = []
        for k, t in items + [('o', None)]:
            if k == 'b': cur.append(t); continue
            if cur: out.append(f'{pad}.base (\n' + ' ;;\n'.join(cur) + ')'); cur = []
            if t: out.append(t)
        return ' ;;;\n'.join(out) if out else f'{pad}.base .skip'
    def block(s, st, ind):
        save = dict(s.env); r = s.ojoin(s.O([st], ind), '  ' * ind); s.env = save; return r
    def O(s, l, ind):
        """statements in sequence; a return ends the list"""
        out = []; pad = '  ' * ind
        for j, st in enumerate(l):
            k = st[0]
            if k == 'blk': return out + s.O(st[1] + l[j+1:], ind)
            if s.ctor and isfile(st): continue
            if s.ctor and k == 'expr' and st[1][0] == 'asg' and st[1][2][0] == 'var' and st[1][2][1] in GA + ['elem_type']:
                x = st[1][2][1]; assert st[1][1] == '='; z = s.I(s.msize(st[1][3]))
                out.append(('b', f'{pad}  .mallocI {var(x)} {z}') if x == 'elem_type' else ('o', f'{pad}.alloc .{x} {z}')); continue
            if s.ctor and k == 'expr' and st[1][:2] == ('call', ('var', 'assert')) and st[1][2][0][:2] == ('bin', '&&'):
                ands = lambda e: ands(e[2]) + ands(e[3]) if e[:2] == ('bin', '&&') else [e]
                assert sorted(e[1] for e in ands(st[1][2][0])) == sorted(GA + ['elem_type']); continue
            if k == 'expr' and st[1][:2] == ('bin', '<<'): continue                    # cerr << ..
            if k == 'decl' and st[2][0][0] == 'rad':                                   # never used
                assert st[2][0][3] == ('idx', ('var', 'micro_params'), ('lit', '3'), st[3]) and all(('var', 'rad') not in flat(e) for x in l for y in stmts(x) for e in exprs(y)); continue
            if k == 'ret': return out + s.ret(st[1], ind)
            if k == 'if' and any(x[0] == 'ret' for x in stmts(st)):
                a = s.block(('blk', [st[2]] + l[j+1:]), ind + 1); b = s.block(('blk', ([st[3]] if st[3] else []) + l[j+1:]), ind + 1)
                return out + [('o', f'{pad}.ite {s.B(st[1])} (\n{a}) (\n{b})')]
            if not s.high(st): out += [('b', x) for x in s.S(st, ind + 1)]; continue
            if k == 'for':
                _, v, lo, hi, body, n = st
                assert s.env.get(v, 'd') == 'd' and not (names(hi) - set(GI)), (s.name, v)
                assert all(not (e[0] == 'asg' and root(e[2]) == v) for x in stmts(body) for e in exprs(x))
                save = dict(s.env); s.env[v] = 'i'; b = s.block(body, ind + 1); s.env = save
                out.append(('o', f'{pad}.for {var(v)} {s.I(lo)} {s.I(hi)} (\n{b})')); continue
            if k == 'do':
                _, body, c = st; q = body[1]
                [m] = [m for m, x in enumerate(q) if x[0] == 'if' and x[2] == ('brk',) and x[3] is None]
                a = s.ojoin(s.O(q[:m], ind + 1), pad + '  '); b = s.B(q[m][1])
                d = s.O(q[m+1:], ind + 1)
                # the value of `*its` in the condition, read where the pointer points to then
                assert ('un', '*', ('var', 'its')) in flat(c)
                d += [('o', f'{pad}  .ite (.eqI (.var .its_off) (.lit 0)) (.base (.setI {var("its_past")} (.var .its))) (.peek .its_past)')]
                sub = lambda e: ('var', 'its_past') if e == ('un', '*', ('var', 'its')) else tuple(sub(x) if isinstance(x, tuple) else x for x in e)
                s.env['its_past'] = 'i'
                out.append(('o', f'{pad}.doW (\n{a}) {b} (\n{s.ojoin(d, pad + "  ")}) {s.B(sub(c))}')); continue
            if k == 'if':
                _, c, a, b, n = st
                if calls(c):
                    [e] = calls(c); x = 't_' + e[1][1]; s.env[x] = 'i'
                    out.append(s.valcall(e, x, ind))
                    sub = lambda f: ('var', x) if f == e else tuple(sub(y) if isinstance(y, tuple) else y for y in f)
                    c = sub(c)
                a = s.block(a, ind + 1); b = s.block(b, ind + 1) if b else f'{pad}  .base .skip'
                out.append(('o', f'{pad}.ite {s.B(c)} (\n{a}) (\n{b})')); continue
            if k == 'decl':
                [(v, dims, star, init)] = st[2]; assert not dims and not star and v not in s.env
                kd = 'd' if st[1] == 'double' else 'i'; s.env[v] = kd; var(v)
                out += [('b', f'{pad}  .decl{kd.upper()} .{v}'), s.valcall(init, v, ind)]; continue
            e = st[1]
            if e[:2] == ('un', '*'): assert e == ('un', '*', ('post', '++', ('var', 'its'))); out.append(('b', f'{pad}  .setI .its_off (.add (.var .its_off) (.lit 1))')); continue
            if e[0] == 'asg' and e[2] == ('var', 'inv_max'): assert e[1] == '='; out.append(('o', f'{pad}.setInvMax {s.D(e[3])}')); continue
            if e[0] == 'asg' and e[3][:2] == ('bin', '!='):
                x = s.S(('if', e[3], ('expr', ('asg', '=', e[2], ('lit', '1'), 0), 0), ('expr', ('asg', '=', e[2], ('lit', '0'), 0), 0), 0), ind + 1)
                out += [('b', y) for y in x]; continue
            if e[0] == 'asg' and e[3][0] == 'call':
                l2 = e[2]
                if l2[:2] == ('un', '*'): out.append(s.valcall(e[3], l2[2][1], ind)); continue
                assert l2[:2] == ('idx', ('var', 'elem_type'))
                x = 't_' + e[3][1][1]; s.env[x] = 'i'
                out += [s.valcall(e[3], x, ind), ('b', f'{pad}  .stI {var("elem_type")} {s.I(l2[2])} (.var {var(x)})')]; continue
            assert e[0] == 'call', st
            if e[1][1] == 'assert':
                t = f'{pad}.abort'
                for c in reversed(s.alts(e[2][0])): t = f'{pad}.ite {s.B(c)} (.base .skip) (\n{t})'
                out.append(('o', t)); continue
            if e[1][1] == 'solve': assert e[2] == []; out.append(('o', f'{pad}.solve')); continue
            out.append(('o', f'{pad}.call ' + s.args(e)))
        return out
    def alts(s, e): return s.alts(e[2]) + s.alts(e[3]) if e[:2] == ('bin', '||') else [e]
    def valcall(s, e, x, ind):
        """x = f(..)"""
        s.back = [f'.ref {var(x)}']; t = s.args(e); s.back = []; f = e[1][1]
        if f in OFUNS: return ('o', '  ' * ind + '.call ' + t)
        return ('b', '  ' * (ind + 1) + '.call ' + t)
    def ret(s, e, ind):
        pad = '  ' * ind; f = s.name
        if e == ('var', 'NAN'): return [('b', f'{pad}  .declD .ret')]
        if e[0] == 'un' and e[1] == '-' and e[2][0] == 'lit': return [('b', f'{pad}  .setI .ret (.lit (-{e[2][1]}))')]
        if e[0] == 'tern': assert (e[2], e[3]) == (('var', 'true'), ('var', 'false')); e = e[1]
        if RET[f] == 'ri': return [('b', f'{pad}  .ite {s.B(e)} (.setI .ret (.lit 1)) (.setI .ret (.lit 0))')]
        return [('b', f'{pad}  .setD .ret {s.D(e)}')]

def top(t, l, ind=1):
    """the body of a function that runs over the list"""
    out = []; pad = '  ' * ind; j = 0
    while j < len(l):
        st = l[j]; j += 1
        if st[0] == 'blk' and st[1] == []: continue                                    # list < gp_t >::iterator gp;
        if st[0] == 'each':
            assert st[1:3] == ('gp', 'gauss_list'); t.env['gp'] = 'gp'; b = st[3]
            if b[0] == 'blk' and len(b[1]) == 1: b = b[1][0]
            if any(x == ('brk',) for x in stmts(b)):
                assert b[0] == 'if' and b[3] is None and b[2][1][-1] == ('brk',) and sum(x == ('brk',) for x in stmts(b)) == 1
                c = t.B(b[1]); x = t.block(('blk', b[2][1][:-1]), ind + 1)
                if j < len(l):
                    nx_ = l[j]; j += 1; assert j == len(l) and nx_[0] == 'if' and nx_[3] is None
                    assert nx_[1][:3] == ('bin', '==', ('var', 'gp')) and nx_[1][3][:3] == ('call', ('mem', ('var', 'gauss_list'), 'end'), [])
                    q = nx_[2][1]; assert q[0][:2] == ('decl', 'gp_t') and q[0][2] == [('gp_n', [], False, None)]
                    assert q[-1][1][:3] == ('call', ('mem', ('var', 'gauss_list'), 'push_back'), [('var', 'gp_n')])
                    t.env['gp_n'] = 'gp'; y = t.block(('blk', q[1:-1]), ind + 1)
                    out.append(f'{pad}.findOrPush {c} (\n{x}) (\n{y})')
                else: out.append(f'{pad}.find {c} (\n{x})')
            else: out.append(f'{pad}.each (\n{t.block(b, ind + 1)})')
        else: out.append(f'{pad}.stmt (\n{t.block(st, ind + 1)})')
    return '[' + ',\n'.join(out).lstrip() + ']'

FFUNS = ['output', 'write_vtu', 'write_info_files']
FNAME = {'micropp_convergence.dat': '.conv', 'micropp_eps_sig_ctan.dat': '.eps', 'micropp_int_vars_n.dat': '.vars', 'micropp_materials.dat': '.mats'}
class FT(OT):
    """statements with output to files"""
    def S(s, st, ind, last=False):
        if st[0] == 'if' and st[1][:3] == ('bin', '!=', ('var', 'vars_old')): assert st[1][3] == ('var', 'NULL') and st[3] is None; return s.S(st[2], ind, last)
        return OT.S(s, st, ind, last)
    def isF(s, st):
        return any(x[0] == 'each' or isfile(x) or isname(x) or any(c[1][1] == 'write_vtu' for e in exprs(x) for c in calls(e)) for x in stmts(st))
    def toks(s, e):
        if e[0] == 'str':
            x = e[1]
            if len(x) > 4: return [f'.str "{x}"']
            return [f'.int (.lit {y})' if re.fullmatch(r'\d+', y) else f'.str "{y}"' for y in re.findall(r' |[^ ]+', x)]
        if e == ('var', 'endl'): return ['.endl']
        if e == ('var', 'scientific') or e[:2] == ('call', ('var', 'setw')): return []
        return [f'.int {s.I(e)}'] if s.kind(e) == 'i' else [f'.num {s.D(e)}']
    def put(s, e, pad):
        l = []
        while e[:2] == ('bin', '<<'): l.append(e[3]); e = e[2]
        assert e == ('var', 'file'); out = []; cur = []
        def flush():
            if cur: out.append(f'{pad}.put [' + ', '.join(cur) + ']'); cur.clear()
        for x in reversed(l):
            if x[0] == 'tern':
                flush(); out.append(f'{pad}.ite {s.B(x[1])} (.put [' + ', '.join(s.toks(x[2])) + ']) (.put [' + ', '.join(s.toks(x[3])) + '])')
            else: cur += s.toks(x)
        flush(); return out
    def fblock(s, st, ind):
        save = dict(s.env); r = s.F([st], ind); s.env = save
        return ' ;;;;\n'.join(r) if r else '  ' * ind + '.obj (.base .skip)'
    def F(s, l, ind):
        out = []; cur = []; pad = '  ' * ind
        def flush():
            if cur:
                t = s.O(list(cur), ind + 1); cur.clear()
                if t: out.append(f'{pad}.obj (\n' + s.ojoin(t, pad + '  ') + ')')
        while len(l) == 1 and l[0][0] == 'blk': l = l[0][1]
        for st in l:
            k = st[0]
            if not s.isF(st): cur.append(st); continue
            flush()
            if isname(st):
                if k == 'expr':
                    n = st[1]; q = []
                    while n[:2] == ('bin', '<<'): q.append(n[3]); n = n[2]
                    q.reverse(); assert q[0] == ('str', 'micropp_') and q[2] == ('str', '_') and q[4] == ('str', '.vtu') and len(q) == 5
                    s.fname = f'(.vtu {s.I(q[1])} {s.I(q[3])})'
                elif st[2][0][0] == 'fname_vtu': assert st[2] == [('fname_vtu', [], False, ('call', ('mem', ('var', 'fname_vtu_s'), 'str'), [], st[3]))]
                else: assert st[2] == [('fname_vtu_s', [], False, None)]
                continue
            if isfile(st):
                if k == 'decl': continue
                e = st[1]
                if e[0] == 'call' and e[1][2] == 'close': assert e[2] == []; out.append(f'{pad}.close'); continue
                if e[0] == 'call':
                    assert e[1][2] == 'open'; a = e[2]
                    n = s.fname if a[0] == ('var', 'fname_vtu') else FNAME[a[0][1]]; assert a[1:] in ([], [('var', 'std::ios_base::app')])
                    out.append(f'{pad}.open {n} {"true" if a[1:] else "false"}'); continue
                out += s.put(e, pad); continue
            if k == 'each':
                assert st[1:3] == ('gp', 'gauss_list') and 'gp' not in s.env; save = dict(s.env); s.env['gp'] = 'gp'; b = st[3]
                if b[0] == 'blk' and len(b[1]) == 1: b = b[1][0]
                if any(x == ('brk',) for x in stmts(b)):
                    assert b[0] == 'if' and b[3] is None and b[2][1][-1] == ('brk',) and sum(x == ('brk',) for x in stmts(b)) == 1
                    c = s.B(b[1]); out.append(f'{pad}.find {c} (\n{s.fblock(("blk", b[2][1][:-1]), ind + 1)})')
                else: out.append(f'{pad}.each (\n{s.fblock(b, ind + 1)})')
                s.env = save; continue
            if k == 'for':
                _, v, lo, hi, body, n = st
                assert s.env.get(v, 'd') == 'd' and (not (names(hi) - set(GI)) or hi == ('var', 'numMaterials')), (s.name, v)
                assert all(not (e[0] == 'asg' and root(e[2]) in (v, 'numMaterials')) for x in stmts(body) for e in exprs(x))
                lo, hi = s.I(lo), s.I(hi)
                save = dict(s.env); s.env[v] = 'i'; b = s.fblock(body, ind + 1); s.env = save
                out.append(f'{pad}.for {var(v)} {lo} {hi} (\n{b})'); continue
            if k == 'if':
                _, c, a, b, n = st
                if c[:2] == ('bin', '!='): c = ('bin', '==') + c[2:]; a, b = b or ('blk', []), a
                a = s.fblock(a, ind + 1); b = s.fblock(b, ind + 1) if b else f'{pad}  .obj (.base .skip)'
                out.append(f'{pad}.ite {s.B(c)} (\n{a}) (\n{b})'); continue
            if k == 'blk': save = dict(s.env); out += s.F([st], ind); s.env = save; continue
            e = st[1]; assert e[:2] == ('call', ('var', 'write_vtu')), st
            out.append(f'{pad}.call .write_vtu [' + ', '.join(s.I(a) for a in e[2]) + ']')
        flush()
        return out
def isname(st):
    """the name of the vtu file"""
    if st[0] == 'decl': return st[1] in ('std::stringstream', 'std::string')
    if st[0] != 'expr': return False
    e = st[1]
    while e[:2] == ('bin', '<<'): e = e[2]
    return e == ('var', 'fname_vtu_s')

def members():
    """the data members of the class in the order of their declaration"""
    h = uncomment(open(HDR).read()); h = h[h.index('class micropp_t {'):]; h = h[:h.index('public:')]
    out = []
    for d in h.split(';')[:-1]:
        d = d.split(':')[-1]; m = re.match(r'\s*(?:const\s+)?(int|double|bool|material_t|list<gp_t>|ell_matrix)\b(.*)', d, re.S)
        if not m: m = re.match(r'\s*(list<gp_t>)(.*)', d, re.S)
        assert m, d
        out += [(x.strip(' *\t\n').split('[')[0], m.group(1)) for x in m.group(2).split(',')]
    return out
CTOR = {}
def ctor(l, fill):
    M = members(); ps = {'_dim': ('a_dim', 'i'), '_micro_type': ('a_micro_type', 'i'), '_micro_params': ('a_micro_params', 'v'), 'size': ('size', 'iv'), 'mat_types': ('mat_types', 'iv'), 'params': ('params', 'v')}
    assert [[y[0] for y in x[1]] for x in OBODIES if x[0] == 'micropp_t'][0] == ['_dim', 'size', '_micro_type', '_micro_params', 'mat_types', 'params']
    sub = lambda e: ('var', ps[e[1]][0]) if isinstance(e, tuple) and e[0] == 'var' and e[1] in ps else tuple(sub(y) if isinstance(y, tuple) else [sub(z) for z in y] if isinstance(y, list) else y for y in e) if isinstance(e, tuple) else e
    t = OT('ctor', [(v, k, []) for v, k in ps.values()] + [('micro_params', 'v', [])], None); t.ctor = True
    out = []; pad = '  '
    order = [x for x, ty in M if x in INITS]; assert sorted(order) == sorted(INITS)
    for x in order: t.env[x] = 'd' if dict(M)[x] == 'double' else 'i'; var(x)          # reading it before it is set is a fault
    for x in order:
        ty = dict(M)[x]; k = 'd' if ty == 'double' else 'i'; e = sub(INITS[x]); g = t.D if k == 'd' else t.I
        if e[0] == 'tern': out.append(f'{pad}.ite {t.B(e[1])} (.set{k.upper()} .{x} {g(e[2])}) (.set{k.upper()} .{x} {g(e[3])})')
        else: out.append(f'{pad}.set{k.upper()} .{x} {g(e)}')
    CTOR['init'] = ' ;;\n'.join(out)
    t = OT('ctor', [(v, k, []) for v, k in ps.values()] + [('micro_params', 'v', []), ('numMaterials', 'i', []), ('elem_type', 'iv', [])], None); t.ctor = True
    j = l.index(fill); assert l[j+1][:2] == ('expr', ('call', ('var', 'calc_ctan_lin'), [], l[j+1][2])) and all(isfile(x) for x in l[j+2:])
    t = FT('ctor', [(v, k, []) for v, k in ps.values()] + [('micro_params', 'v', []), ('numMaterials', 'i', []), ('elem_type', 'iv', [])], None); t.ctor = True
    CTOR['fbody'] = ' ;;;;\n'.join(t.F([sub(x) for x in l[:j]], 1)); CTOR['fend'] = ' ;;;;\n'.join(t.F([('blk', l[j+2:])], 1))

for x in ('its_off', 'its_past'): var(x)
for f in GP: var('g_' + f)
ODEFS = []; TDEFS = []; FDEFS = []
for name, params, body, line, end, file in OBODIES:
    f = name
    if f == 'micropp_t':
        [st] = [x for x in body[1] if x[0] == 'if' and any(c[1][1] == 'ell_init_2D' for y in stmts(x) for e in exprs(y) for c in calls(e))]
        ctor(body[1], st)
        body = ('blk', [st]); f = 'fill_elem_type'; PARAM[f] = []; line, end = 116, 137
    if f in FFUNS:
        assert all(k == 'i' for v, k, n in PARAM[f])
        t = FT(f, [(v, k, n) for v, k, n in PARAM[f]], body)
        if f == 'write_info_files': t.env['output_files_header'] = 'i'
        FDEFS.append((f, line, end, ' ;;;;\n'.join(t.F([body], 1)), file))
        for v, k, n in PARAM[f]: var(v)
        continue
    t = OT(f, [(v, {'ri': 'i', 'rd': 'd'}.get(k, k), n) for v, k, n in PARAM[f]], body)
    if f == 'calc_ctan_lin': t.env['ctan_lin'] = 'v'; var('ctan_lin')                  # assigned here, read nowhere in it
    if f in TFUNS: TDEFS.append((f, line, end, top(t, body[1]), file))
    else:
        pre = [('b', '    .setI .its_off (.lit 0)')] if f == 'newton_raphson' else []
        if pre: t.env['its_off'] = 'i'
        ODEFS.append((f, line, end, t.ojoin(pre + t.O([body], 1), '  '), file))
    for v, k, n in PARAM[f]: var(v)
assert sorted(x[0] for x in ODEFS) == sorted(OFUNS) and sorted(x[0] for x in TDEFS) == sorted(TFUNS) and sorted(x[0] for x in FDEFS) == sorted(FFUNS)

L = ['import Verif.Model.Micro', '', '/-!', '# Names in the text of /repo/src/assembly.cpp, ell.cpp, solve.cpp', '', 'Generated by `tools/gen_text.py`.', '-/', '', 'namespace Verif.Text', '',
     '/-- Local variables and parameters of the functions in /repo/src/assembly.cpp:28-1182, /repo/src/ell.cpp:40-1876, /repo/src/solve.cpp:32-44.  `ret` is the value returned;',
     '`material_x`, `m_x`, `solver_x` are the fields of `material`, `m`, `solver`. -/', 'inductive V']
for i in range(0, len(V), 10): L.append('  | ' + ' | '.join(V[i:i+10]))
L += ['  deriving DecidableEq', '', '/-- Functions of /repo/src/assembly.cpp:28-1182, /repo/src/ell.cpp:40-1876, /repo/src/solve.cpp:32-44. -/', 'inductive Fn']
for i in range(0, len(FUNS), 6): L.append('  | ' + ' | '.join(FUNS[i:i+6]))
L += ['  deriving DecidableEq', '', '/-- How a parameter is passed: `int` or `bool` by value, `double` by value, reference to (or array of) .. -/',
      'inductive Kind', '  | i | d   -- by value', '  | ri | rd   -- pointer to one `bool`, one `double`', '  | v | m   -- array, matrix of `double`', '  | mat   -- `material_t`', '  | ell | solver   -- `ell_matrix *`, `ell_solver *`', '  deriving DecidableEq', '',
      '/-- Parameter lists in /repo/src/assembly.cpp:28-1182, /repo/src/ell.cpp:40-1876, /repo/src/solve.cpp:32-44. -/', 'def params : Fn → List (Kind × V)']
for f in FUNS:
    L.append(f'  | .{f} => [' + ', '.join(f'(.{k}, .{"ret" if k in ("mat", "ell", "solver") else v})' for v, k, n in PARAM[f] + ([('ret', RET[f], [])] if f in RET else [])) + ']')
L += ['', '/-- Functions of /repo/src/solve.cpp:46-66, /repo/src/homogenize.cpp:26-88, /repo/src/micro.cpp:177-224, and the loops',
      'of the constructor that fill `elem_type` and the matrix pattern (/repo/src/micro.cpp:116-137). -/', 'inductive OFn', '  | ' + ' | '.join(OFUNS), '  deriving DecidableEq', '',
      '/-- Their parameters; `ret` is the value returned. -/', 'def oparams : OFn → List (Kind × V)']
for f in OFUNS: L.append(f'  | .{f} => [' + ', '.join(f'(.{k}, .{v})' for v, k, n in PARAM[f] + ([('ret', RET[f], [])] if f in RET else [])) + ']')
L += ['', '/-- Functions over the list of Gauss points: /repo/src/homogenize.cpp:90-217, /repo/src/micro.cpp:167-175. -/', 'inductive TFn', '  | ' + ' | '.join(TFUNS), '  deriving DecidableEq']
L += ['', '/-- Functions that write files: /repo/src/output.cpp:29-285. -/', 'inductive FFn', '  | ' + ' | '.join(FFUNS), '  deriving DecidableEq', '',
      '/-- Their parameters, all of type `int`: /repo/src/output.cpp:29, 52, 224. -/', 'def fparams : FFn → List V']
for f in FFUNS: L.append(f'  | .{f} => [' + ', '.join(f'.{v}' for v, k, n in PARAM[f]) + ']')
L += ['', 'end Verif.Text']
open(OUT + '/TextNames.lean', 'w').write('\n'.join(L) + '\n')
L = ['import Verif.Model.Text', '', '/-!', '# The text of /repo/src/assembly.cpp, ell.cpp, solve.cpp', '', 'Generated by `tools/gen_text.py`.', '-/', '', 'namespace Verif.Text', '']
for nm, rows, n in TABS:
    L += [f'/-- The constants of `{nm[2:].split("_", 2)[2]}`: /repo/src/ell.cpp:{n}-{n + len(rows) - 1}. -/', f'def {nm} : List (List Int) :=', '  [' + ',\n   '.join('[' + ', '.join(map(str, r)) + ']' for r in rows) + ']', '']
for f, a, b, t, fl in DEFS:
    L += [f'/-- `{f}`: /repo/src/{fl}.cpp:{a}-{b}. -/', f'def t_{f} : Stmt :=', t, '']
L += ['/-- The bodies: /repo/src/assembly.cpp:28-1182, /repo/src/ell.cpp:40-1876, /repo/src/solve.cpp:32-44. -/', 'def body : Fn → Stmt']
for f in FUNS: L.append(f'  | .{f} => t_{f}')
L += ['', '/-- The functions of /repo/src/assembly.cpp:28-1182, /repo/src/ell.cpp:40-1876, /repo/src/solve.cpp:32-44, with calls nested at most `n` deep. -/',
      'def run {α : Type} [Scalar α] (c : Cfg α) : Nat → Fn → St α → M (St α)',
      '  | 0, _, _ => .error .fuel', '  | n + 1, f, s => (body f).exec c (run c n) s', '', 'end Verif.Text']
open(OUT + '/TextTable.lean', 'w').write('\n'.join(L) + '\n')
L = ['import Verif.Model.ObjText', '', '/-!', '# The text of /repo/src/homogenize.cpp and of parts of solve.cpp, micro.cpp', '', 'Generated by `tools/gen_text.py`.', '-/', '', 'namespace Verif.Text', '']
for f, a, b, t, fl in ODEFS: L += [f'/-- `{f}`: /repo/src/{fl}.cpp:{a}-{b}. -/', f'def o_{f} : OStmt :=', t, '']
L += ['/-- The bodies: /repo/src/solve.cpp:46-66, /repo/src/homogenize.cpp:26-88, /repo/src/micro.cpp:116-137, 177-224. -/', 'def obody : OFn → OStmt']
for f in OFUNS: L.append(f'  | .{f} => o_{f}')
for f, a, b, t, fl in TDEFS: L += ['', f'/-- `{f}`: /repo/src/{fl}.cpp:{a}-{b}. -/', f'def l_{f} : List Top :=', '  ' + t]
L += ['', '/-- The bodies: /repo/src/homogenize.cpp:90-217, /repo/src/micro.cpp:167-175. -/', 'def tbody : TFn → List Top']
for f in TFUNS: L.append(f'  | .{f} => l_{f}')
L += ['', '/-- The initialisers of the constructor, in the order of /repo/include/micro.hpp:69-75: /repo/src/micro.cpp:30-53. -/', 'def k_init : Stmt :=', CTOR['init']]
L += ['', '/-- The functions of /repo/src/solve.cpp:46-66, /repo/src/homogenize.cpp:26-88, /repo/src/micro.cpp:116-137, 177-224, with',
      'calls nested at most `n` deep. -/', 'def oRun {α : Type} [Scalar α] (env : Env α) (c : Cfg α) : Nat → OFn → St α → M (St α)',
      '  | 0, _, _ => .error .fuel', '  | n + 1, f, s => (obody f).exec env c (oRun env c n) s', '',
      '/-- A list of statements over the Gauss points, in sequence: /repo/src/micro.cpp:169-174. -/',
      'def execAll {α : Type} [Scalar α] (env : Env α) : List Top → ObjSt α → M (ObjSt α)',
      '  | [], s => .ok s', '  | t :: ts, s => do', '    let s ← t.exec env (fun c p => p.exec env c (oRun env c 3)) s',
      '    execAll env ts s', '',
      '/-- The functions of /repo/src/homogenize.cpp:90-217, /repo/src/micro.cpp:167-175. -/',
      'def tRun {α : Type} [Scalar α] (env : Env α) (f : TFn) (s : ObjSt α) : M (ObjSt α) := execAll env (tbody f) s', '', 'end Verif.Text']
open(OUT + '/ObjTable.lean', 'w').write('\n'.join(L) + '\n')
L = ['import Verif.Model.FileText', '', '/-!', '# The text of /repo/src/output.cpp and of the constructor with its files', '', 'Generated by `tools/gen_text.py`.', '-/', '', 'namespace Verif.Text', '']
for f, a, b, t, fl in FDEFS: L += [f'/-- `{f}`: /repo/src/{fl}.cpp:{a}-{b}. -/', f'def f_{f} : FStmt :=', t, '']
L += ['/-- The bodies: /repo/src/output.cpp:29-285. -/', 'def fbody : FFn → FStmt']
for f in FFUNS: L.append(f'  | .{f} => f_{f}')
L += ['', '/-- The body of the constructor up to the loops over the elements: /repo/src/micro.cpp:55-116. -/', 'def f_ctor : FStmt :=', CTOR['fbody'], '',
      '/-- The end of the constructor: /repo/src/micro.cpp:140-145. -/', 'def f_ctor_end : FStmt :=', CTOR['fend'], '',
      '/-- The functions of /repo/src/output.cpp:29-285, with calls nested at most `n` deep; at the end the stream is closed. -/',
      'def fRun {α : Type} [Scalar α] (env : Env α) (c : Cfg α) (gs : List (Gp α)) : Nat → FFn → FSt α → M (FSt α)',
      '  | 0, _, _ => .error .fuel', '  | n + 1, f, s => do', '    let t ← (fbody f).exec c gs (fun p => p.exec env c (oRun env c 3)) (fRun env c gs n) s',
      '    pure t.close', '', 'end Verif.Text']
open(OUT + '/FileTable.lean', 'w').write('\n'.join(L) + '\n')
print(len(V), 'variables', len(FUNS), 'functions')
