"""Extract /repo/src/wrapper.cpp: lean/Verif/Model/WrapTable.lean.

Every function of the file has one statement, either `micro = new micropp_t(..);` or `micro->f(..);`, whose arguments
are `*p` or `p` for a parameter `p` of the function.  The parameters of the methods and of the constructor are read from
their definitions in /repo/src.  The script stops on anything else.
"""
import re, os
HERE = os.path.dirname(os.path.abspath(__file__))
SRC = os.environ.get('SITES_SRC', '/repo/src')
OUT = os.environ.get('TEXT_OUT', HERE + '/../lean/Verif/Model')

def strip(t):
    t = re.sub(r'/\*.*?\*/', lambda m: '\n' * m.group().count('\n'), t, flags=re.S)
    return re.sub(r'//[^\n]*', '', t)

def params(t):
    """[(name, type)]; types: int, intp (pointer or array), dblp, cintp and cdblp if const."""
    r = []
    for p in [x.strip() for x in t.split(',')]:
        if p in ('', 'void'): continue
        m = re.fullmatch(r'(const\s+)?(int|double)\s*(\*?)\s*(\w+)\s*(\[\d*\])?', p)
        assert m, p
        c, b, star, n, arr = m.groups()
        k = b + ('p' if star or arr else '')
        assert k in ('int', 'intp', 'doublep'), p
        k = k.replace('double', 'dbl')
        r.append((n, 'c' + k if c and k != 'int' else k))
    return r

w = strip(open(SRC + '/wrapper.cpp').read())
assert re.search(r'static\s+micropp_t\s*\*\s*micro\s*=\s*NULL\s*;', w)
i = w.index('extern "C" {') + len('extern "C" {'); w0 = w[:i].count('\n'); body = w[i:w.rindex('}')]
FN = []; pos = 0; rest = body
for m in re.finditer(r'\s*void\s+(\w+)\s*\(([^)]*)\)\s*\{([^}]*)\}', body):
    assert m.start() == pos, body[pos:m.start()]
    pos = m.end()
    first = w0 + body[:m.start() + len(m.group()) - len(m.group().lstrip())].count('\n') + 1
    last = w0 + body[:m.end()].count('\n') + 1
    st = m.group(3).strip()
    c = re.fullmatch(r'micro\s*=\s*new\s+micropp_t\s*\((.*)\)\s*;', st, re.S)
    d = re.fullmatch(r'micro\s*->\s*(\w+)\s*\((.*)\)\s*;', st, re.S)
    assert c or d, st
    ps = params(m.group(2)); args = []
    assert all(t in ('intp', 'dblp') for _, t in ps), ps
    for a in [x.strip() for x in (c.group(1) if c else d.group(2)).split(',')]:
        if a == '': continue
        e = re.fullmatch(r'(\*?)\s*(\w+)', a)
        assert e and e.group(2) in [n for n, _ in ps], a
        args.append(('deref' if e.group(1) else 'ptr', e.group(2)))
    FN.append((m.group(1), first, last, ps, None if c else d.group(1), args))
assert body[pos:].strip() == '', body[pos:]

files = ['assembly', 'homogenize', 'micro', 'output', 'solve']
METH = []
def find(name):
    r = []
    for f in files:
        t = strip(open(SRC + '/%s.cpp' % f).read())
        for m in re.finditer(r'micropp_t::%s\s*\(([^)]*)\)\s*[{:]' % re.escape(name), t):
            r.append((f, t[:m.start()].count('\n') + 1, params(m.group(1))))
    assert len(r) == 1, (name, r)
    return r[0]
CT = find('micropp_t')
for _, _, _, _, f, _ in FN:
    if f and f not in [x[0] for x in METH]: METH.append((f,) + find(f))

def var(x): return 'a' + x if x.startswith('_') else x
WV = []
for _, _, _, ps, _, _ in FN:
    for n, _ in ps:
        if n not in WV: WV.append(n)
L = ['import Verif.Model.TextNames', '', '/-!', '# The text of /repo/src/wrapper.cpp', '', 'Generated by `tools/gen_wrap.py`.', '-/', '', 'namespace Verif.Text', '',
     '/-- The type of a parameter: `int`, `int *` (or an array), `double *`, the same with `const`.\n/repo/src/wrapper.cpp:30-71, /repo/src/micro.cpp:28-29. -/',
     'inductive PT', '  | int | intp | dblp | cintp | cdblp', 'deriving DecidableEq', '',
     '/-- An argument of the call in a wrapper: `*p` or `p`.  /repo/src/wrapper.cpp:33-73. -/',
     'inductive WArg (ν : Type)', '  | deref (x : ν) | ptr (x : ν)', '',
     '/-- The names of the parameters: /repo/src/wrapper.cpp:30-71. -/', 'inductive WV', '  | ' + ' | '.join(WV), 'deriving DecidableEq', '',
     '/-- The functions of the Fortran interface: /repo/src/wrapper.cpp:30-74. -/', 'inductive WFn']
L += ['  | ' + f[0] for f in FN] + ['deriving DecidableEq', '',
     '/-- The methods they call: /repo/src/wrapper.cpp:38-73. -/', 'inductive Meth', '  | ' + ' | '.join(f[0] for f in METH), 'deriving DecidableEq', '',
     '/-- The statement of a wrapper: `micro = new micropp_t(..)` or `micro->m(..)`.  /repo/src/wrapper.cpp:33-73. -/', 'inductive WBody',
     '  | new (args : List (WArg WV)) | call (m : Meth) (args : List (WArg WV))', '']
def pl(ps, f): return '[' + ', '.join(f'(.{f(n)}, .{t})' for n, t in ps) + ']'
L += ['/-- Parameters: %s. -/' % ', '.join(f'/repo/src/wrapper.cpp:{f[1]}' if i == 0 else str(f[1]) for i, f in enumerate(FN)), 'def wparams : WFn → List (WV × PT)']
for f in FN: L.append(f'  | .{f[0]} => {pl(f[3], lambda n: n)}')
L += ['', '/-- Statements: %s. -/' % ', '.join(f'/repo/src/wrapper.cpp:{f[1]}-{f[2]}' if i == 0 else f'{f[1]}-{f[2]}' for i, f in enumerate(FN)), 'def wbody : WFn → WBody']
for f in FN:
    a = '[' + ', '.join(f'.{k} .{x}' for k, x in f[5]) + ']'
    L.append(f'  | .{f[0]} => ' + (f'.call .{f[4]} {a}' if f[4] else f'.new {a}'))
L += ['', '/-- Parameters of the methods: %s. -/' % ', '.join(f'/repo/src/{m[1]}.cpp:{m[2]}' for m in METH), 'def mparams : Meth → List (V × PT)']
for m in METH: L.append(f'  | .{m[0]} => {pl(m[3], var)}')
L += ['', f'/-- Parameters of the constructor: /repo/src/{CT[0]}.cpp:{CT[1]}-{CT[1] + 1}. -/', 'def kparams : List (V × PT) := ' + pl(CT[2], var), '', 'end Verif.Text']
open(OUT + '/WrapTable.lean', 'w').write('\n'.join(L) + '\n')
print(len(FN), 'functions', len(METH), 'methods')
