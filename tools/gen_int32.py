"""Extract the integer expressions of /repo/src/ell.cpp into lean/Verif/Model/Int32Table.lean.

Extracted: subscripts, the column numbers stored by the init functions, the node numbers
(nod_index, `int n = ..`, `n += ..`, the entries of sn[]), the int constants, the loop bounds, the operands of the
comparisons of ell_init_2D and the int part of malloc sizes.  Subscripts that consist of one variable or of a matrix entry, and constant tables, are left out.

Renaming: m->nnz nnz; m->nrow nrow; a node number (i of the solvers' diagonal loops and of ell_init_2D, nn of
ell_init_3D, n of ell_set_bc_*, sn[k]) node; the row counter i row; a position in a row (j, col) slot; cols_row[k][n] l;
the counters n of ell_set_bc_2D:408-443 bx and by; in the add functions i and j of the entry d1 and d2, k and n of Ae ak and an.
"""
import re, collections, os
SRC = '/repo/src/ell.cpp'
L = open(SRC).read().split('\n')
FN = {'nFields': 'nF'}

def subscripts(s):
    out = []; i = 0
    while i < len(s):
        if s[i] == '[':
            d = 1; j = i + 1
            while d: d += (s[j] == '[') - (s[j] == ']'); j += 1
            out.append(s[i+1:j-1]); out += subscripts(s[i+1:j-1]); i = j
        else: i += 1
    return out

def tok(s): return re.findall(r'\w+|[-+*()]', s)

def parse(s):
    t = tok(s); p = 0
    def atom():
        nonlocal p
        x = t[p]; p += 1
        if x == '(':
            e = add(); assert t[p] == ')', s; p += 1; return e
        assert re.fullmatch(r'\w+', x), (s, x)
        return f'(.lit {x})' if x.isdigit() else f'(.var .{x})'
    def mul():
        nonlocal p
        e = atom()
        while p < len(t) and t[p] == '*': p += 1; e = f'(.mul {e} {atom()})'
        return e
    def add():
        nonlocal p
        e = mul()
        while p < len(t) and t[p] in '+-':
            o = t[p]; p += 1; e = f'(.{"add" if o == "+" else "sub"} {e} {mul()})'
        return e
    e = add(); assert p == len(t), s
    return e

def sub(s, m):
    return re.sub(r'\b\w+\b', lambda x: m.get(x.group(0), x.group(0)), s)

def macro(s):
    m = re.fullmatch(r'nod_index\(([^,]*),([^,]*),([^,]*)\)', s)
    if not m: return s
    i, j, k = (x.strip() for x in m.groups())
    return f'(({k})*nx*ny + ({j})*nx + ({i}))'

fun = None; depth_for = []
T = {'common': collections.OrderedDict(), '2': collections.OrderedDict(), '3': collections.OrderedDict()}
bound = {}   # loop variable -> bound, for the 2D counters
for n, l in enumerate(L, 1):
    m = re.match(r'^(?:int|void) (\w+)\(', l)
    if m: fun = m.group(1); bound = {}
    if fun is None or fun == 'ell_free': continue
    l = l.split('//')[0]
    ex = list(subscripts(l))
    m = re.search(r'mcols\[.*?\] = (.*);', l)
    if m: ex.append(m.group(1))
    for pat in (r'\b(?:nn|n) = (nod_index\(.*\));', r'const int \w+ = ([^{]*);', r'\bint n = (.*);', r'\bint nn = (.*);'):
        m = None if 'for (' in l else re.search(pat, l)
        if m: ex.append(m.group(1))
    m = re.search(r'\bn \+= (.*);', l)
    if m: ex.append('n + ' + m.group(1))
    m = re.search(r'malloc\((.*?) \* sizeof', l)
    if m: ex.append(m.group(1))
    m = re.search(r'for \(int (\w+) = .*?; *(\w+) < (.*?);', l)
    if m: ex.append(m.group(3)); bound[m.group(1)] = m.group(3)
    m = re.search(r'while \(\w+ < (m->\w+)\)', l)
    if m: ex.append(m.group(1))
    if fun == 'ell_init_2D':
        m = re.search(r'if \((.*)\) \{', l)
        if m:
            for q in re.split(r'==|!=|<=|>=|<|>|&&|\|\||%', m.group(1)):
                q = q.strip()
                while q.count('(') > q.count(')'): q = q.replace('(', '', 1)
                while q.count(')') > q.count('('): q = q[::-1].replace(')', '', 1)[::-1]
                ex.append(q.strip())
    if fun.startswith('ell_add') and n in range(342, 346): ex.append(re.sub(r'const int sn\[4\] = \{|\};|,$', '', l.strip()).strip())
    if fun.startswith('ell_add') and n in range(384, 388): ex.append(re.sub(r'\s*\};|,$', '', l.strip()).strip())
    for e in ex:
        e = e.strip()
        if not e or re.fullmatch(r'\d+', e): continue
        if re.match(r'm->cols\[', e): continue
        e = re.sub(r'sn\[k\]', 'node', e); e = re.sub(r'cols_row\[k\]\[n\]', 'l', e)
        e = e.replace('m->nnz', 'nnz').replace('m->nrow', 'nrow')
        e = macro(e)
        mp = dict(FN)
        dims = '3' if fun.endswith('3D') else '2'
        if fun in ('ell_set_zero_mat', 'ell_mvp_2D', 'ell_print'):
            mp.update(i='row', j='slot'); dims = 'common'
        elif fun.startswith('ell_solve'):
            if e.startswith('i * nFields'): mp.update(i='node')
            else: mp.update(i='row', j='slot')
            dims = 'common' if ('13' not in e and '4' not in e and 'nx' not in e) else ('3' if '13' in e else '2')
        elif fun.startswith('ell_add'):
            if n >= (351 if dims == '2' else 393):
                mp.update(i='d1', j='d2', k='ak', n='an')
            mp.update(nFieldsnnz='fnnz', npenFields='pf', npenFields2='pf2')
            e = re.sub(r'\bn0\b', 'ez * (nx * ny) + ey * nx + ex', e) if n in range(384, 388) else e
            for q, x in (('n1', 'ez * (nx * ny) + ey * nx + ex + 1'), ('n2', 'ez * (nx * ny) + (ey + 1) * nx + ex + 1'), ('n3', 'ez * (nx * ny) + (ey + 1) * nx + ex')):
                e = re.sub(rf'\b{q}\b', '(' + x + ')', e)
            if n in range(384, 388): e = re.sub(r'^ez \* \(nx \* ny\) \+ ey \* nx \+ ex \+ nx', '(ez * (nx * ny) + ey * nx + ex) + nx', e)
        elif fun == 'ell_set_bc_2D':
            if n < 444: mp.update(n='bx' if bound.get('n') == 'nx' else 'by', j='slot')
            else: mp.update(n='node')
        elif fun == 'ell_set_bc_3D': mp.update(n='node', col='slot')
        elif fun == 'ell_init_2D': mp.update(i='node')
        elif fun == 'ell_init_3D':
            if n > 876: mp.update(nn='node')
        e = sub(e, mp)
        if re.fullmatch(r'\w+', e) and e in ('node', 'row', 'slot', 'd', 'd1', 'd2', 'l', 'i', 'j', 'k', 'ak', 'an', 'n', 'gp', 'bx', 'by'): continue
        T[dims].setdefault(parse(e), []).append((n, e))

out = ['import Verif.Model.Int32', '', '/-!', '# The integer expressions of /repo/src/ell.cpp', '',
       'Generated by `tools/gen_int32.py` from the text of /repo/src/ell.cpp:40-1876; see there for what is extracted.', '-/', '',
       'namespace Verif', '']
for key, nm, doc in (('common', 'occCommon', 'Expressions of functions used in both dimensions: /repo/src/ell.cpp:40-327.'),
                     ('2', 'occ2D', 'Expressions of the two-dimensional functions: /repo/src/ell.cpp:58-863.'),
                     ('3', 'occ3D', 'Expressions of the three-dimensional functions: /repo/src/ell.cpp:207-1876.')):
    out.append(f'/-- {doc} -/'); out.append(f'def {nm} : List Occ :=')
    items = list(T[key].items())
    for a, (e, ns) in enumerate(items):
        lines = sorted({x for x, _ in ns})
        out.append(f'  -- {ns[0][1]}')
        out.append(('  [' if a == 0 else '   ') + f'⟨{lines}, {e[1:-1]}⟩' + (',' if a + 1 < len(items) else ']'))
    out.append('')
node3 = [(e, ns) for e, ns in T['3'].items() if any(378 <= x <= 387 for x, _ in ns) or ns[0][1].startswith('((')]
node2 = [(e, ns) for e, ns in T['2'].items() if any(342 <= x <= 345 for x, _ in ns)]
for items, nm, doc in ((node2, 'nodes2D', 'The node numbers of ell_add_struct2D: /repo/src/ell.cpp:342-345.'),
                       (node3, 'nodes3D', 'The node numbers of ell_add_struct3D, ell_set_bc_3D and ell_init_3D: /repo/src/ell.cpp:378-387, 546-1876.')):
    out.append(f'/-- {doc} -/'); out.append(f'def {nm} : List Occ :=')
    for a, (e, ns) in enumerate(items):
        lines = sorted({x for x, _ in ns})
        out.append(f'  -- {ns[0][1]}')
        out.append(('  [' if a == 0 else '   ') + f'⟨{lines}, {e[1:-1]}⟩' + (',' if a + 1 < len(items) else ']'))
    out.append('')
out.append('end Verif')
open(os.path.join(os.path.dirname(__file__), '..', 'lean/Verif/Model/Int32Table.lean'), 'w').write('\n'.join(out) + '\n')
for k in T:
    print('==', k)
    for e, ns in T[k].items(): print(' ', ns[0][1], '@', len(ns), ns[0][0])
