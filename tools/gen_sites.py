"""Extract integer expressions, array accesses and calls from /repo/src/{micro,assembly,solve,homogenize,output}.cpp
into lean/Verif/Model/SiteTable.lean.

The bodies are parsed (statements, declarations, expressions).  For each of the following an entry is written, with
the loops and the tests of `dim` around it and the `int` variables defined before it:
  fits    an int expression with an operator (subscripts, loop bounds, malloc sizes, operands of float operations, ..)
  index   a subscript of an array: the array members of the classes, locals, parameters, and the blocks of the constructor
  extent  an array handed to a parameter: the entries the callee uses, the entries there are
  range   an int handed to a parameter, or assigned to `mat_num`: its range
Macros (glo_elem3D, intvar_ix, nod_index, MAX_MAT_PARAM, ..) are expanded as the preprocessor does.  The ranges of int
parameters and the extents of pointer parameters are in CONTRACT below.  Tests other than on `dim` are dropped (the
entry is then claimed for either outcome).
"""
import re, os, sys
FILES = ['micro', 'assembly', 'solve', 'homogenize', 'output']
SRC = os.environ.get('SITES_SRC', '/repo/src') + '/%s.cpp'
INTMEM = ['dim', 'nx', 'ny', 'nz', 'nn', 'npe', 'nvoi', 'nelem', 'micro_type', 'num_int_vars', 'numMaterials']
# arrays: extent per dimension (macro bodies in micro.hpp:34-38, arrays in micro.hpp:42-80, blocks in micro.cpp:58-65)
MEMBER = {'micro_params': ['5'], 'material_list': ['10'], 'ctan_lin': ['36'],
          'b': ['nn * dim'], 'du': ['nn * dim'], 'u': ['nn * dim'], 'elem_stress': ['nelem * nvoi'],
          'elem_strain': ['nelem * nvoi'], 'elem_type': ['nelem'], 'vars_old': ['num_int_vars'], 'vars_new': ['num_int_vars']}
GP = {'nr_its': ['7'], 'macro_strain': ['6'], 'macro_stress': ['6'], 'macro_ctan': ['36'], 'nr_err': ['7'],
      'int_vars_n': ['num_int_vars'], 'int_vars_k': ['num_int_vars']}
EX = {'ex': ('0', 'nx - 1'), 'ey': ('0', 'ny - 1'), 'ez': ('0', 'nz - 1')}
GP4 = dict(EX, gp=('0', '4')); GP8 = dict(EX, gp=('0', '8'))
# function -> (required dim, int parameter ranges, extents of pointer parameters)
CONTRACT = {
  'micropp_t': (None, {}, {'size': ['dim'], '_micro_params': ['5'], 'mat_types': ['2'], 'params': ['14']}),
  'get_elem_type2D': (2, EX, {}), 'get_elem_type3D': (3, EX, {}),
  'set_displ': (None, {}, {'eps': ['nvoi']}),
  'get_elem_mat2D': (2, EX, {}), 'get_elem_mat3D': (3, EX, {}),
  'get_ctan_plast_sec': (3, GP8, {}), 'get_ctan_plast_exact': (3, GP8, {}), 'get_ctan_plast_pert': (3, GP8, {}),
  'calc_bmat_3D': (3, {'gp': ('0', '8')}, {}),
  'get_elem_rhs2D': (2, EX, {}), 'get_elem_rhs3D': (3, EX, {}),
  'get_stress2D': (2, GP4, {'stress_gp': ['3']}), 'get_stress3D': (3, GP8, {'stress_gp': ['6']}),
  'get_material': (None, {'e': ('0', 'nelem')}, {}),
  'get_strain2D': (2, GP4, {'strain_gp': ['3']}), 'get_strain3D': (3, GP8, {'strain_gp': ['6']}),
  'getElemDisp/3': (2, EX, {'elem_disp': ['8']}), 'getElemDisp/4': (3, EX, {'elem_disp': ['24']}),
  'plastic_step': (3, {}, {}), 'get_dev_tensor': (3, {}, {}),
  'is_linear': (None, {}, {'macro_strain': ['nvoi']}),
  'get_inv_1': (None, {}, {'tensor': ['nvoi']}), 'get_inv_2': (3, {}, {'tensor': ['nvoi']}),
  'set_macro_strain': (None, {}, {'macro_strain': ['nvoi']}),
  'get_macro_stress': (None, {}, {'macro_stress': ['nvoi']}),
  'get_macro_ctan': (None, {}, {'macro_ctan': ['nvoi * nvoi']}),
}
RANGED = {'mat_num': ('0', 'numMaterials')}          # locals assigned in branches
INVARIANT = {('write_vtu', 'ce'): ('npe * (e + 1)', 'e')}  # value of `ce` in the body of the loop over `e`

TOK = re.compile(r'''"(?:\\.|[^"])*"|\d+\.\d*(?:[eE][-+]?\d+)?|\d+(?:[eE][-+]?\d+)?|\w+(?:::\w+)*|
 ->|<<|>>|<=|>=|==|!=|&&|\|\||\+\+|--|\+=|-=|\*=|/=|[-+*/%<>=!&|?:;,.(){}\[\]~]''', re.X)
MACRO = {'glo_elem3D': (['ex', 'ey', 'ez'], '((ez) * (nx-1) * (ny-1) + (ey) * (nx-1) + (ex))'),
         'intvar_ix': (['e', 'gp', 'var'], '((e) * 8 * 7 + (gp) * 7 + (var))'),
         'nod_index': (['i', 'j', 'k'], '((k)*nx*ny + (j)*nx + (i))')}
CONST = {'MAX_MAT_PARAM': '10', 'NUM_VAR_GP': '7', 'INT_VARS_GP': '7', 'MAX_MATS': '10', 'CG_MAX_ITS': '2000', 'NR_MAX_ITS': '40'}

def lex(text):
    out = []
    for n, l in enumerate(text, 1):
        if l.startswith('#') or l.startswith('using'): continue
        l = l.split('//')[0]
        for t in TOK.findall(l): out.append((t, n))
    return out

def uncomment(s):
    return re.sub(r'/\*.*?\*/', lambda m: re.sub(r'[^\n]', ' ', m.group(0)), s, flags=re.S)

def expand(toks):
    out = []; i = 0
    while i < len(toks):
        t, n = toks[i]
        if t in CONST: out.append((CONST[t], n)); i += 1
        elif t in MACRO and toks[i+1][0] == '(':
            args = [[]]; d = 1; i += 2
            while d:
                x = toks[i][0]; d += (x == '(') - (x == ')')
                if d == 0: pass
                elif x == ',' and d == 1: args.append([])
                else: args[-1].append(toks[i])
                i += 1
            args = [expand(a) for a in args]
            ps, body = MACRO[t]; assert len(ps) == len(args)
            for x in TOK.findall(body):
                if x in ps: out += [(a, n) for a, _ in args[ps.index(x)]]
                else: out.append((x, n))
        else: out.append(toks[i]); i += 1
    return out

TYPES = {'int', 'double', 'bool', 'material_t', 'void', 'const', 'auto', 'ofstream', 'gp_t', 'ell_solver', 'list', 'std::stringstream', 'std::string'}

class P:
    def __init__(s, toks): s.t = toks; s.p = 0
    def pk(s, k=0): return s.t[s.p+k][0] if s.p+k < len(s.t) else None
    def ln(s): return s.t[s.p][1]
    def nx(s): s.p += 1; return s.t[s.p-1][0]
    def eat(s, x): assert s.pk() == x, (x, s.t[s.p:s.p+8]); s.p += 1
    # expressions: ('lit',v) ('var',x) ('bin',op,a,b) ('un',op,a) ('idx',a,i,line) ('mem',a,f) ('call',f,args,line) ('asg',op,l,r) ('tern',c,a,b)
    def expr(s): return s.asg()
    def asg(s):
        l = s.tern()
        if s.pk() in ('=', '+=', '-=', '*=', '/='):
            o = s.nx(); n = s.ln(); return ('asg', o, l, s.asg(), n)
        return l
    def tern(s):
        c = s.bina(0)
        if s.pk() == '?':
            s.nx(); a = s.asg(); s.eat(':'); b = s.asg(); return ('tern', c, a, b)
        return c
    LV = [['||'], ['&&'], ['==', '!='], ['<', '>', '<=', '>='], ['<<', '>>'], ['+', '-'], ['*', '/', '%']]
    def bina(s, k):
        if k == len(s.LV): return s.un()
        a = s.bina(k+1)
        while s.pk() in s.LV[k]:
            n = s.ln(); o = s.nx(); a = ('bin', o, a, s.bina(k+1), n)
        return a
    def un(s):
        if s.pk() in ('-', '+', '!', '&', '*', '++', '--'):
            o = s.nx(); return ('un', o, s.un())
        if s.pk() == '(' and s.pk(1) in ('double', 'int') and s.pk(2) == '*' and s.pk(3) == ')':
            s.p += 4; return s.un()
        if s.pk() == 'new': assert 0
        return s.post()
    def post(s):
        n = s.ln(); x = s.nx()
        if x == '(':
            e = s.expr(); s.eat(')')
        elif x == 'sizeof':
            s.eat('('); s.nx(); s.eat(')'); e = ('sizeof',)
        elif x[0] == '"': 
            e = ('str',)
            while s.pk() and s.pk()[0] == '"': s.nx()
        elif re.match(r'\d', x): e = ('lit', x)
        elif x == '{':
            while s.pk() != '}':
                e = s.asg()
                if s.pk() == ',': s.nx()
            s.eat('}'); e = ('str',)
        else: e = ('var', x)
        while s.pk() in ('[', '(', '.', '->', '++', '--'):
            n = s.ln(); o = s.nx()
            if o == '[': i = s.expr(); s.eat(']'); e = ('idx', e, i, n)
            elif o == '(':
                a = []
                while s.pk() != ')':
                    a.append(s.asg())
                    if s.pk() == ',': s.nx()
                s.eat(')'); e = ('call', e, a, n)
            elif o in ('++', '--'): e = ('post', o, e)
            else: e = ('mem', e, s.nx())
        return e
    # statements
    def stmt(s):
        x = s.pk(); n = s.ln()
        if x == '{':
            s.nx(); b = []
            while s.pk() != '}': b.append(s.stmt())
            s.nx(); return ('blk', b)
        if x == ';': s.nx(); return ('blk', [])
        if x == 'for':
            s.nx(); s.eat('(')
            if s.pk() == 'auto':
                while s.pk() != ':': s.nx()
                s.nx(); s.expr(); s.eat(')'); return ('each', s.stmt())
            if s.pk() == 'int':
                s.nx(); v = s.nx(); s.eat('='); lo = s.expr(); s.eat(';'); c = s.expr(); s.eat(';'); st = s.expr(); s.eat(')')
                assert c[0] == 'bin' and c[1] == '<' and c[2] == ('var', v) and st in (('post', '++', ('var', v)), ('un', '++', ('var', v))), (c, st, n)
                return ('for', v, lo, c[3], s.stmt(), n)
            s.expr(); s.eat(';'); c = s.expr(); s.eat(';'); s.expr(); s.eat(')'); return ('each', s.stmt())
        if x == 'if':
            s.nx(); s.eat('('); c = s.expr(); s.eat(')'); a = s.stmt(); b = None
            if s.pk() == 'else': s.nx(); b = s.stmt()
            return ('if', c, a, b, n)
        if x == 'do':
            s.nx(); b = s.stmt(); s.eat('while'); s.eat('('); c = s.expr(); s.eat(')'); s.eat(';'); return ('do', b, c)
        if x in ('break', 'continue'): s.nx(); s.eat(';'); return ('blk', [])
        if x == 'return':
            s.nx(); e = None
            if s.pk() != ';': e = s.expr()
            s.eat(';'); return ('ret', e, n)
        if x in TYPES and x != 'list':
            ty = []
            while s.pk() in TYPES: ty.append(s.nx())
            ds = []
            while True:
                star = False
                while s.pk() in ('*', '&'): s.nx(); star = True
                v = s.nx(); dims = []
                while s.pk() == '[': s.nx(); dims.append(s.expr()); s.eat(']')
                init = None
                if s.pk() == '=': s.nx(); init = s.asg() if s.pk() != '{' else s.brace()
                ds.append((v, dims, star, init))
                if s.pk() == ',': s.nx(); continue
                break
            s.eat(';'); return ('decl', [t for t in ty if t != 'const'][0], ds, n)
        if x == 'list':
            while s.pk() != ';': s.nx()
            s.nx(); return ('blk', [])
        e = s.expr(); s.eat(';'); return ('expr', e, n)
    def brace(s):
        s.eat('{'); c = 0
        while s.pk() != '}':
            if s.pk() == '{': s.brace()
            else: s.asg()
            c += 1
            if s.pk() == ',': s.nx()
        s.nx(); return ('str', c)

def parse_expr(txt): return P(expand([(t, 0) for t in TOK.findall(txt)])).expr()

def show(e):
    k = e[0]
    if k == 'lit': return e[1]
    if k == 'var': return e[1]
    if k == 'bin':
        f = lambda x: f'({show(x)})' if x[0] == 'bin' else show(x)
        return f'{f(e[2])} {e[1]} {f(e[3])}'
    raise Exception(e)

VARS = []
def lean(e):
    k = e[0]
    if k == 'lit': return f'(.lit {int(e[1])})'
    if k == 'var':
        v = e[1]
        if v == '_dim': v = 'dim'
        if v not in VARS: VARS.append(v)
        return f'(.var .{v})'
    if k == 'bin': return f'(.{dict([("+", "add"), ("-", "sub"), ("*", "mul")])[e[1]]} {lean(e[2])} {lean(e[3])})'
    raise Exception(e)

SITES = []   # (file, line, ctx, kind, args)
PARAMS = {}  # fn key -> list of (name, type, dims or None, isptr)

class Fn:
    def __init__(s, file, name, params):
        s.file = file; s.name = name; s.ints = set(); s.arr = {}
        key = name if name in CONTRACT else f'{name}/{len(params)}'
        s.key = key
        dim, rng, ext = CONTRACT.get(key, (None, {}, {}))
        s.ctx = []
        if dim: s.ctx.append(('cond', 'dim', str(dim)))
        for (v, ty, dims, ptr) in params:
            if ptr:
                if v in ext: s.arr[v] = [parse_expr(x) for x in ext[v]]
                elif dims: s.arr[v] = dims
            elif ty == 'int':
                s.ints.add(v)
                if v in rng: s.ctx.append(('loop', v, parse_expr(rng[v][0]), parse_expr(rng[v][1])))
    def isint(s, e):
        k = e[0]
        if k == 'lit': return re.fullmatch(r'\d+', e[1]) is not None
        if k == 'var': return e[1] in s.ints or e[1] in INTMEM or e[1] == '_dim'
        if k == 'bin': return e[1] in ('+', '-', '*') and s.isint(e[2]) and s.isint(e[3])
        return False
    def emit(s, ctx, line, kind, *a): SITES.append((s.file, line, s.name, list(ctx), kind, a))
    def arrdims(s, e):
        """dims of an lvalue array expression"""
        if e[0] == 'var':
            if e[1] in s.arr: return e[1], s.arr[e[1]]
            if e[1] in MEMBER: return e[1], [parse_expr(x) for x in MEMBER[e[1]]]
            return None
        if e[0] == 'mem' and e[2] in GP: return e[2], [parse_expr(x) for x in GP[e[2]]]
        if e[0] == 'idx':
            r = s.arrdims(e[1])
            return (r[0], r[1][1:]) if r else None
        return None
    def walk(s, e, ctx, line):
        """emit entries for an expression; maximal int expressions are emitted once"""
        k = e[0]
        if s.isint(e):
            if k == 'bin': s.emit(ctx, line, 'fits', e)
            return
        if k == 'bin':
            if e[1] == '*' and e[3] == ('sizeof',):
                if s.isint(e[2]) and e[2][0] == 'bin': s.emit(ctx, e[4], 'fits', e[2])
                return
            s.walk(e[2], ctx, e[4]); s.walk(e[3], ctx, e[4])
        elif k == 'un' or k == 'post': s.walk(e[2], ctx, line)
        elif k == 'tern':
            s.walk(e[1], ctx, line)
            s.walk(e[2], ctx + s.cond(e[1], True), line); s.walk(e[3], ctx + s.cond(e[1], False), line)
        elif k == 'asg':
            s.walk(e[2], ctx, e[4]); s.walk(e[3], ctx, e[4])
            if e[1] in ('+=', '-=', '*=') and s.isint(e[2]): s.emit(ctx, e[4], 'fits', ('bin', e[1][0], e[2], e[3]))
            if e[2][0] == 'var' and e[2][1] in RANGED:
                s.emit(ctx, e[4], 'range', e[3], *map(parse_expr, RANGED[e[2][1]]))
        elif k == 'idx':
            n = e[3]; s.walk(e[1], ctx, n); s.walk(e[2], ctx, n)
            r = s.arrdims(e[1])
            if r and r[1] and s.isint(e[2]): s.emit(ctx, n, 'index', r[0], e[2], r[1][0])
            elif r and r[1] and e[2][0] == 'idx' and e[2][1] == ('var', 'index'):
                s.emit(ctx, n, 'index', r[0], ('var', 'index_i'), r[1][0])
            elif not r: raise Exception(('unknown array', s.file, n, e))
        elif k == 'mem': s.walk(e[1], ctx, line)
        elif k == 'call':
            n = e[3]
            for a in e[2]: s.walk(a, ctx, n)
            if e[1][0] == 'var': s.call(e[1][1], e[2], ctx, n)
            else: s.walk(e[1], ctx, n)
    def call(s, f, args, ctx, n):
        key = f if f in PARAMS else f'{f}/{len(args)}'
        if key not in PARAMS: return
        dim, rng, ext = CONTRACT.get(key, (None, {}, {}))
        if dim: s.emit(ctx, n, 'range', ('var', 'dim'), ('lit', str(dim)), ('lit', str(dim + 1)))
        for (v, ty, dims, ptr), a in zip(PARAMS[key], args):
            if not ptr and ty == 'int' and v in rng:
                s.emit(ctx, n, 'range', a, parse_expr(rng[v][0]), parse_expr(rng[v][1]))
            elif ptr and (v in ext or dims):
                need = [parse_expr(x) for x in ext[v]] if v in ext else dims
                r = s.arrdims(a)
                if not r: raise Exception(('arg', s.file, n, a))
                assert len(r[1]) == len(need), (s.file, n, v)
                for x, y in zip(need, r[1]): s.emit(ctx, n, 'extent', r[0], x, y)
    def cond(s, c, val):
        if c[0] == 'bin' and c[1] == '==' and c[2][0] == 'var' and c[2][1] in ('dim', '_dim') and c[3][0] == 'lit':
            return [('cond', 'dim', c[3][1])] if val else [('ncond', 'dim', c[3][1])]
        return []
    def stmts(s, st, ctx):
        """returns ctx extended with definitions"""
        k = st[0]
        if k == 'blk':
            c = list(ctx)
            for x in st[1]: c = s.stmts(x, c)
            return ctx + [x for x in c if x[0] == 'def' and x[1] in s.outer and x not in ctx]
        if k == 'for':
            _, v, lo, hi, body, n = st
            s.ints.add(v); s.walk(lo, ctx, n); s.walk(hi, ctx, n)
            c = [x for x in ctx if not (x[0] in ('loop', 'def') and x[1] == v)]
            c = c + [('loop', v, lo, hi)]
            for (fn, w), (inv, at) in INVARIANT.items():
                if fn == s.name and at == v: c = [x for x in c if x[1] != w] + [('def', w, parse_expr(inv))]
            s.stmts(body, c); return ctx
        if k == 'each': s.stmts(st[1], ctx); return ctx
        if k == 'if':
            s.walk(st[1], ctx, st[4]); s.stmts(st[2], ctx + s.cond(st[1], True))
            if st[3]: s.stmts(st[3], ctx + s.cond(st[1], False))
            if any(v in ast_vars(st) for v in RANGED): return [x for x in ctx if x[1] not in RANGED] + [('loop', v, *map(parse_expr, RANGED[v])) for v in RANGED if v in s.ints]
            return ctx
        if k == 'do': s.stmts(st[1], ctx); s.walk(st[2], ctx, 0); return ctx
        if k == 'ret':
            if st[1]: s.walk(st[1], ctx, st[2])
            return ctx
        if k == 'decl':
            for v, dims, star, init in st[2]:
                s.arr.pop(v, None); s.ints.discard(v)
                for d in dims: pass
                if dims:
                    s.arr[v] = dims
                    if init and init[0] == 'str' and len(init) > 1: assert int(show_const(dims[0])) >= init[1], v
                elif st[1] == 'int' and not star:
                    s.ints.add(v)
                    if init is not None:
                        s.walk(init, ctx, st[3])
                        if s.isint(init): ctx = [x for x in ctx if x[1] != v] + [('def', v, init)]
                        else: raise Exception(('int init', st))
                    else: s.outer.add(v)
                elif init is not None: s.walk(init, ctx, st[3])
            return ctx
        if k == 'expr':
            e = st[1]; s.walk(e, ctx, st[2])
            if e[0] == 'asg' and e[1] == '=' and e[2][0] == 'var' and e[2][1] in s.ints and e[2][1] not in RANGED:
                if s.isint(e[3]): ctx = [x for x in ctx if x[1] != e[2][1]] + [('def', e[2][1], e[3])]
            # the table index[]: every entry is the number of a degree of freedom
            if e[0] == 'asg' and e[2][0] == 'idx' and e[2][1] == ('var', 'index'):
                s.emit(ctx, st[2], 'range', e[3], parse_expr('0'), parse_expr('nn * dim'))
            return ctx
        raise Exception(st)

def show_const(e): return eval(show(e))
def ast_vars(e):
    out = set()
    def go(x):
        if isinstance(x, (tuple, list)):
            if len(x) == 2 and x[0] == 'var': out.add(x[1])
            for y in x: go(y)
    go(e); return out

BODIES = []
for f in FILES:
    text = uncomment(open(SRC % f).read()).split('\n')
    toks = expand(lex(text))
    p = P(toks)
    while p.p < len(toks):
        # header up to '('
        while '::' not in p.pk(): p.nx()
        line = p.ln(); name = p.nx().split('::')[1]
        if name == '~micropp_t' or p.pk() == '~':
            name = '~micropp_t'; 
            while p.pk() != '(': p.nx()
        p.eat('('); params = []
        while p.pk() != ')':
            ty = None; ptr = False; dims = []
            while p.pk() == 'const': p.nx()
            ty = p.nx()
            if p.pk() == 'void' or ty == 'void': break
            ref = False
            if p.pk() == '(':
                p.nx(); p.eat('&'); v = p.nx(); p.eat(')'); ptr = True
            else:
                while p.pk() in ('*', '&'): ptr = ptr or p.pk() == '*'; ref = p.pk() == '&'; p.nx()
                v = p.nx()
            while p.pk() == '[': p.nx(); dims.append(p.expr()); p.eat(']'); ptr = True
            params.append((v, ty, dims, ptr))
            if p.pk() == ',': p.nx()
        p.eat(')')
        inits = []
        if p.pk() == ':':
            p.nx()
            while p.pk() != '{':
                n = p.ln(); v = p.nx(); p.eat('('); inits.append((v, p.expr(), n)); p.eat(')')
                if p.pk() == ',': p.nx()
        body = p.stmt()
        key = name if name in CONTRACT else (f'{name}/{len(params)}' if f'{name}/{len(params)}' in CONTRACT else name)
        PARAMS[key] = params
        BODIES.append((f, name, params, inits, body))
for f, name, params, inits, body in BODIES:
    F = Fn(f, name, params); F.outer = set()
    for v, e, n in inits: F.walk(e, F.ctx, n)
    if name == 'micropp_t':
        # nParams and numMaterials are set in both branches of micro.cpp:71-81
        F.ints |= {'nParams'}
    F.stmts(body, F.ctx)

# post-processing
def ctx_lean(c, need):
    out = []
    for x in c:
        if x[0] == 'loop': out.append(f'.loop .{v(x[1])} {lean(x[2])} {lean(x[3])}')
        elif x[0] == 'def': out.append(f'.eq .{v(x[1])} {lean(x[2])}')
        elif x[0] == 'cond': out.append(f'.eq .dim (.lit {x[2]})')
        elif x[0] == 'ncond': out.append(f'.ne .dim (.lit {x[2]})')
    return '[' + ', '.join(out) + ']'
def v(x):
    if x == '_dim': x = 'dim'
    if x not in VARS: VARS.append(x)
    return x
def evars(e): return ast_vars(e)
def prune(ctx, es):
    """keep facts about the variables used, and the tests"""
    used = set(); [used.update(evars(e)) for e in es]
    while True:
        n = len(used)
        for x in ctx:
            if x[0] in ('loop', 'def') and x[1] in used: [used.update(evars(e)) for e in x[2:]]
        if len(used) == n: break
    return [x for x in ctx if x[0] in ('cond', 'ncond') or x[1] in used]
import collections
out = collections.OrderedDict()
for file, line, fn, ctx, kind, a in SITES:
    es = [x for x in a if isinstance(x, tuple)]
    c = prune(ctx, es)
    # simplify tests: not (dim = 2) followed by dim = 3
    cs = []
    for x in c:
        if x not in cs: cs.append(x)
    if any(x[0] == 'cond' for x in cs): cs = [x for x in cs if x[0] != 'ncond']
    c = sorted(cs, key=lambda x: 0 if x[0] in ('cond', 'ncond') else 1)
    if any(x == ('var', 'index_i') for x in es): c.append(('loop', 'index_i', parse_expr('0'), parse_expr('nn * dim')))
    if kind == 'fits': ob = f'.fits {lean(a[0])}'
    elif kind == 'index': ob = f'.index "{a[0]}" {lean(a[1])} {lean(a[2])}'
    elif kind == 'extent': ob = f'.extent "{a[0]}" {lean(a[1])} {lean(a[2])}'
    elif kind == 'range': ob = f'.range {lean(a[0])} {lean(a[1])} {lean(a[2])}'
    key = (file, kind, ctx_lean(c, None), ob)
    out.setdefault(key, []).append(line)
if '-v' in sys.argv:
    for (file, kind, c, ob), ls in out.items(): print(file, sorted(set(ls)), c, ob)
L = ['import Verif.Model.Site', '', '/-!', '# Integer expressions, array accesses and calls', '',
     'Generated by `tools/gen_sites.py` from /repo/src/micro.cpp, assembly.cpp, solve.cpp, homogenize.cpp and output.cpp;',
     'see there for what is extracted.', '-/', '', 'namespace Verif', '']
names = {'fits': [], 'rest': []}
RANGE = {'micro': '28-224', 'assembly': '29-1182', 'solve': '32-66', 'homogenize': '26-217', 'output': '29-285'}
for f in FILES:
    for g, ks in (('fits', ['fits']), ('rest', ['index', 'extent', 'range'])):
        items = [(k, ls) for k, ls in out.items() if k[0] == f and k[1] in ks]
        for a in range(0, len(items), 60):
            nm = f'{f}{"Ints" if g == "fits" else "Uses"}{a // 60}'
            names[g].append(nm)
            L.append(f'/-- {"Integer expressions" if g == "fits" else "Array accesses and arguments"} of /repo/src/{f}.cpp:{RANGE[f]}{"" if len(items) <= 60 else ", part %d" % (a // 60 + 1)}. -/')
            L.append(f'def {nm} : List Site :=')
            ch = items[a:a+60]
            for n, ((file, kind, c, ob), ls) in enumerate(ch):
                L.append(('  [' if n == 0 else '   ') + f'⟨"{file}.cpp", {sorted(set(ls))}, {c}, {ob}⟩' + (',' if n + 1 < len(ch) else ']'))
            L.append('')
L.append('/-- All integer expressions. -/'); L.append('def intSites : List Site :=\n  ' + ' ++ '.join(names['fits'])); L.append('')
L.append('/-- All array accesses and arguments. -/'); L.append('def useSites : List Site :=\n  ' + ' ++\n  '.join(names['rest'])); L.append('')
L.append('end Verif')
open(os.path.join(os.path.dirname(os.path.abspath(__file__)), '..', 'lean/Verif/Model/SiteTable.lean') if 'SITES_OUT' not in os.environ else os.environ['SITES_OUT'], 'w').write('\n'.join(L) + '\n')
print(len(out), 'entries,', len(SITES), 'sites;', ' '.join(VARS))
