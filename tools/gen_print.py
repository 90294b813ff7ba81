"""Extract `ell_print` of /repo/src/ell.cpp: lean/Verif/Model/PrintTable.lean.

The function starts with tests of pointers against NULL with a `return`; then come `cout << ..` and loops
`for (int v = 0; v < m->f; v++)`, then `return`.  `setw(..)` and `setprecision(..)` are left out.  The script stops on
anything else.
"""
import re, os
HERE = os.path.dirname(os.path.abspath(__file__))
SRC = os.environ.get('SITES_SRC', '/repo/src')
OUT = os.environ.get('TEXT_OUT', HERE + '/../lean/Verif/Model')
t = open(SRC + '/ell.cpp').read()
t = re.sub(r'/\*.*?\*/', lambda m: '\n' * m.group().count('\n'), t, flags=re.S)
t = re.sub(r'//[^\n]*', '', t)
m = re.search(r'^int ell_print\(ell_matrix \*m\)\s*\{', t, re.M)
first = t[:m.start()].count('\n') + 1
i = m.end(); d = 1
while d:
    d += {'{': 1, '}': -1}.get(t[i], 0); i += 1
last = t[:i].count('\n') + 1
TOK = re.findall(r'"(?:[^"\\]|\\.)*"|\w+|->|<<|\+\+|==|\|\||\S', t[m.end():i - 1])
pos = 0
def peek(k=0): return TOK[pos + k] if pos + k < len(TOK) else None
def eat(*xs):
    global pos
    for x in xs:
        assert TOK[pos] == x, (TOK[pos:pos + 8], x); pos += 1
def word():
    global pos
    w = TOK[pos]; assert re.fullmatch(r'[A-Za-z_]\w*', w), w; pos += 1
    return w
def num():
    global pos
    w = TOK[pos]; assert re.fullmatch(r'\d+', w), w; pos += 1
    return int(w)
INTS = {'nrow', 'ncol', 'nnz'}
def atom(vs):
    if re.fullmatch(r'\d+', peek()): return f'(.lit {num()})'
    w = word()
    if w == 'm':
        eat('->'); f = word(); assert f in INTS, f
        return f'(.var .m_{f})'
    assert w in vs, w
    return f'(.var .{w})'
def prod(vs):
    e = atom(vs)
    while peek() == '*': eat('*'); e = f'(.mul {e} {atom(vs)})'
    return e
def iexp(vs):
    e = prod(vs)
    while peek() == '+': eat('+'); e = f'(.add {e} {prod(vs)})'
    return e
def operand(vs):
    global pos
    w = peek()
    if w[0] == '"': pos += 1; return '.str ' + w
    if w == 'endl': pos += 1; return '.endl'
    if w in ('setw', 'setprecision'): pos += 1; eat('('); num(); eat(')'); return None
    if w == 'm' and peek(2) in ('cols', 'vals'):
        eat('m', '->'); f = word(); eat('['); e = iexp(vs); eat(']')
        return f'.int (.rd .m_cols {e})' if f == 'cols' else f'.num (.rd1 .m_vals {e})'
    return '.int ' + iexp(vs)
def stmt(vs, ind):
    pad = '  ' * ind
    if peek() == 'cout':
        eat('cout'); r = []
        while peek() == '<<': eat('<<'); r.append(operand(vs))
        eat(';')
        return [pad + '.put [' + ', '.join(x for x in r if x) + ']']
    eat('for', '(', 'int'); v = word(); eat('=', '0', ';', v, '<', 'm', '->'); f = word(); assert f in INTS
    eat(';', v, '+', '+', ')') if peek(2) == '+' else eat(';', v, '++', ')')
    if peek() == '{': eat('{'); b = block(vs + [v], ind + 1); eat('}')
    else: b = join([stmt(vs + [v], ind + 1)])
    return [f'{pad}.for .{v} (.lit 0) (.var .m_{f}) ('] + b[:-1] + [b[-1] + ')']
def join(l):
    r = []
    for k, s in enumerate(l): r += s[:-1] + [s[-1] + (' ;;;;' if k + 1 < len(l) else '')]
    return r
def block(vs, ind):
    l = []
    while peek() not in ('}', 'return', None): l.append(stmt(vs, ind))
    return join(l)
G = []
while peek() == 'if':
    eat('if', '('); ps = []
    while True:
        eat('m')
        if peek() == '->': eat('->'); f = word(); assert f in ('vals', 'cols'), f; ps.append(f)
        else: ps.append('mat')
        eat('==', 'NULL')
        if peek() == '||': eat('||'); continue
        break
    eat(')', 'return'); G.append((ps, num())); eat(';')
B = block([], 1)
eat('return'); R = num(); eat(';'); assert pos == len(TOK), TOK[pos:]
L = ['import Verif.Model.FileText', '', '/-!', '# The text of `ell_print`', '', 'Generated by `tools/gen_print.py`.', '-/', '', 'namespace Verif.Text', '',
     f'/-- The pointers tested against NULL: /repo/src/ell.cpp:{first + 2}-{first + 5}. -/', 'inductive PNull', '  | mat | cols | vals', '',
     f'/-- The tests at the start, each with the value returned: /repo/src/ell.cpp:{first + 2}-{first + 5}. -/',
     'def printTests : List (List PNull × Int) :=', '  [' + ', '.join('([' + ', '.join('.' + p for p in ps) + f'], {k})' for ps, k in G) + ']', '',
     f'/-- What is written to `cout`: /repo/src/ell.cpp:{first + 7}-{last - 2}. -/', 'def t_ell_print : FStmt :='] + B + ['',
     f'/-- The value returned: /repo/src/ell.cpp:{last - 1}. -/', f'def printRet : Int := {R}', '', 'end Verif.Text']
open(OUT + '/PrintTable.lean', 'w').write('\n'.join(L) + '\n')
