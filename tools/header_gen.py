"""Extracts the declarations of the public functions in /repo/include/monolish/{blas,vml}/*.hpp into Lean tables:
those of the functions that have a table of definitions (tools/{dispatch,product,reduce,line}_gen.py). The rows are
listed in the order of the definitions, then the declarations without definition.
Writes Verif/Model/HeaderSrc*.lean."""
import re, os, glob
src = open(os.path.join(os.path.dirname(os.path.abspath(__file__)), 'dispatch_gen.py')).read()
ns = {'re': re, 'OWN': {'vector': '.vec', 'matrix::Dense': '.mat', 'tensor::tensor_Dense': '.ten'}}
for name in ['strip_comments', 'split_args', 'parse_ty']:
    exec(re.search(r'^def ' + name + r'\(.*?(?=^\S)', src, re.M | re.S).group(0), ns)
split_args, parse_ty = ns['split_args'], ns['parse_ty']
M = '/verif/lean/Verif/Model/'
PR = {'double': '.d', 'float': '.s'}

def par(p, line):
    """(lean parameter, is it a non-const scalar reference)"""
    p = p.split('=')[0].strip()
    if re.match(r'^(const )?size_t( &?\w*)?$', p): return '.num', False
    m = re.match(r'^(const )?(.*?)( ?&)?(\w*)$', p)
    c, t, ref, name = m.groups()
    if not ref:                      # a value: "const double alpha", "const double"
        m = re.match(r'^(const )?(double|float)( \w+)?$', p)
        if not m: raise Exception(p)
        return f'.scal {PR[m.group(2)]}', False
    if t in PR: return f'.scal {PR[t]}', not c
    if 'view1D<matrix::CRS' in t.replace(' ',''): return '.crsView '+('.d' if 'double' in t else '.s')+(' true' if c else ' false'), False
    r = parse_ty(t)
    if r is None: return None, False
    return f'.obj {r[0]} .{r[1]} {"true" if c else "false"}', False

decls, skipped, noclass = [], {}, []
for f in sorted(glob.glob('/repo/include/monolish/blas/*.hpp') + glob.glob('/repo/include/monolish/vml/*.hpp')):
    s = open(f).read()
    s = re.sub(r'/\*.*?\*/', lambda m: '\n' * m.group(0).count('\n'), s, flags=re.S)
    s = re.sub(r'//[^\n]*', '', s)
    nsp = 'blas' if '/blas/' in f else 'vml'
    for m in re.finditer(r'(?:\[\[[^\]]*\]\]\s*)?\b(void|double|float|bool)\s+(\w+)\s*\(([^;{}()]*)\)\s*;', s):
        ps = []
        out = 'none'
        for i, p in enumerate(split_args(m.group(3))):
            ps.append(par(p, f))
        if any(x[0] and x[0].startswith('.crsView') for x in ps):
            noclass.append((m.group(2), '[' + ', '.join(x[0] if x[0].startswith('.crsView') else f'.known ({x[0]})' for x in ps) + ']'))
            continue
        if any(x[0] is None for x in ps):
            k = (nsp, m.group(2), 'view1D<CRS>' if 'view1D<matrix::CRS' in m.group(3) else 'LinearOperator' if 'LinearOperator' in m.group(3) else '?')
            skipped[k] = skipped.get(k, 0) + 1
            continue
        if any(x[1] for x in ps):
            assert ps[-1][1] and not any(x[1] for x in ps[:-1]) and m.group(1) == 'void', m.group(0)
            out = f'(some {ps[-1][0][6:]})'
            ps = ps[:-1]
        ret = f'(some {PR[m.group(1)]})' if m.group(1) in PR else 'none'
        decls.append((nsp, m.group(2), '[' + ', '.join(x[0] for x in ps) + ']', ret, out, os.path.basename(f)))
print('declarations', len(decls), 'skipped', skipped)

def rows(fn):
    """tables of a generated file: (table name, chunks of row texts)"""
    t = open(M + fn + '.lean').read()
    for m in re.finditer(r'^def (\w+) : List Overload := \[\n(.*?)\]\n\n', t, re.M | re.S):
        yield m.group(1), re.findall(r'^  ⟨(.*)⟩,?$', m.group(2), re.M)

def fields(r):
    """name and parameter list of a row"""
    m = re.match(r'^\.(\w+), (\[[^\]]*\]), (.*)$', r)
    return m.group(1), m.group(2), m.group(3)

used = set()
def emit(out, imp, nsname, opens, typ, groups, key, rowtext, sel, doc, tail=''):
    o = open(M + out + '.lean', 'w')
    o.write(f'import Verif.Model.{imp}\n\n/-!\nGenerated by tools/header_gen.py from /repo/include/monolish/{{blas,vml}}/*.hpp: {doc}. Do not edit.\n-/\n\nnamespace {nsname}\n\n{opens}')
    have = {}
    for i, d in enumerate(decls):
        k = sel(d)
        if k is not None: have.setdefault(k, []).append(i)
    names, n, hidden = [], 0, []
    for g in groups:
        for tn, rs in rows(g):
            lst = []
            for r in rs:
                k = key(r)
                if k in have:
                    used.add(k); lst.append(rowtext(k)); n += 1
                    have[k] and have[k].append('seen')
                else: hidden.append(k)
            names.append('h' + tn[1:])
            o.write(f'/-- the overloads of `{tn}` that are declared -/\ndef h{tn[1:]} : {typ} := [\n' + ',\n'.join('  ' + x for x in lst) + ']\n\n')
    extra = [k for k, v in have.items() if 'seen' not in v]
    o.write(f'/-- declared without a definition -/\ndef hExtra : {typ} := [' + ',\n  '.join(rowtext(k) for k in extra) + ']\n\n')
    o.write(f'/-- all declarations ({n + len(extra)}), table by table -/\ndef declared : List ({typ}) :=\n  [{", ".join(names)}, hExtra]\n\n{tail}end {nsname}\n')
    o.close()
    print(out, 'declared', n, 'extra', len(extra), 'hidden', len(hidden))

FNS = {'p': ['matvec', 'matvec_N', 'matvec_T', 'matmul', 'tensvec', 'tensmat', 'mattens', 'tensmul'],
       'l': ['times_row', 'times_col', 'adds_row', 'adds_col'], 'r': ['asum', 'sum', 'nrm1', 'nrm2', 'dot', 'max', 'min']}
emit('HeaderProduct', 'ProductSrc', 'Verif.Product', '', 'List (Fn × List Dispatch.Par)', ['ProductSrc'],
     lambda r: fields(r)[:2], lambda k: f'(.{k[0]}, {k[1]})',
     lambda d: (d[1], d[2]) if d[0] == 'blas' and d[1] in FNS['p'] else None, 'declared product functions')
emit('HeaderLine', 'LineOpSrc', 'Verif.LineOp', '', 'List (Fn × List Par)', ['LineOpSrc'],
     lambda r: fields(r)[:2], lambda k: f'(.{k[0]}, {k[1]})',
     lambda d: (d[1], d[2]) if d[0] == 'blas' and d[1] in FNS['l'] else None, 'declared row and column operations',
     '/-- a parameter as the headers write it: one of `Par`, or `view1D<matrix::CRS<..>, ..>`, a class no other operation\nof the library takes -/\ninductive HPar | known (p : Par) | crsView (p : Dispatch.Prec) (const : Bool)\nderiving DecidableEq, Repr\n\n'
     + '/-- the declarations with a `view1D` of a `CRS` matrix (include/monolish/blas/monolish_matvec_blas.hpp) -/\ndef crsViewDecls : List (Fn × List HPar) := [\n' + ',\n'.join(f'  (.{a}, {b})' for a, b in noclass) + ']\n\n')
def rkey(r):
    a, b, c = fields(r)
    m = re.match(r'^(none|\(some \.[ds]\)), (none|\(some \.[ds]\)), ', c)
    return a, b, m.group(1), m.group(2)
emit('HeaderReduction', 'ReductionSrc', 'Verif.Reduction', '', 'List (Fn × List Dispatch.Par × Option Dispatch.Prec × Option Dispatch.Prec)', ['ReductionSrc'],
     rkey, lambda k: f'(.{k[0]}, {k[1]}, {k[2]}, {k[3]})',
     lambda d: d[1:5] if d[1] in FNS['r'] and (d[3] != 'none' or d[4] != 'none') else None, 'declared reductions')
efns = set(re.findall(r'\b(?:vml|blas)_\w+', re.search(r'inductive Fn\n(.*?)deriving', open(M + 'DispatchApi.lean').read(), re.S).group(1)))
for nm, g in [('Vec', 'DispatchSrcVec'), ('Mat', 'DispatchSrcMat'), ('Ten', 'DispatchSrcTen'), ('Blas', 'DispatchSrcBlas')]:
    keys = {fields(r)[:2] for _, rs in rows(g) for r in rs}
    emit('HeaderElem' + nm, g, 'Verif.Dispatch.Header' + nm, '', 'List (Fn × List Par)', [g],
         lambda r: fields(r)[:2], lambda k: f'(.{k[0]}, {k[1]})',
         lambda d: (d[0] + '_' + d[1], d[2]) if (d[0] + '_' + d[1], d[2]) in keys else None, 'declared element-wise functions of ' + g)
allk = {fields(r)[:2] for g in ['DispatchSrcVec', 'DispatchSrcMat', 'DispatchSrcTen', 'DispatchSrcBlas'] for _, rs in rows(g) for r in rs}
rest = {}
for d in decls:
    if d[0] + '_' + d[1] in efns and d[3] == 'none' and d[4] == 'none' and (d[0] + '_' + d[1], d[2]) not in allk:
        rest.setdefault(d[0] + '_' + d[1], []).append(d[2])
print('elementwise names declared but not in table:', {k: (len(v), v[0]) for k, v in rest.items()})
