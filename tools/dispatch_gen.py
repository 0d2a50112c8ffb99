"""Extracts the element-wise API of /repo (public overloads, core templates, kernels) into Lean tables.
Writes Verif/Model/DispatchCores.lean and Verif/Model/DispatchSrc{Vec,Mat,Ten,Blas}.lean."""
import re, glob, os
R = '/repo/src/'
OUT = '/verif/lean/Verif/Model/'

def strip_comments(s):
    return re.sub(r'//[^\n]*', '', s)

def split_args(s):
    ps, d, cur = [], 0, ''
    for ch in s:
        if ch in '<([': d += 1
        if ch in '>)]': d -= 1
        if ch == ',' and d == 0:
            ps.append(cur); cur = ''
        else:
            cur += ch
    if cur.strip(): ps.append(cur)
    return [' '.join(p.split()) for p in ps]

def functions(f, tmpl):
    """(first line, last line, return type, name, parameters, body text)"""
    s = strip_comments(open(f).read())
    pat = r'^(?:template\s*<[^>]*>\s*)' if tmpl else r'^'
    for m in re.finditer(pat + r'(void|double|float|bool|size_t|F\d)\s+(\w+)\(([^{};]*)\)\s*\{', s, re.M):
        i, d = m.end(), 1
        while d:
            d += {'{': 1, '}': -1}.get(s[i], 0); i += 1
        a = s[:m.start()].count('\n') + 1
        b = s[:i].count('\n') + 1
        yield a, b, m.group(1), m.group(2), split_args(m.group(3)), s[m.end():i-1]

# ---------------------------------------------------------------- expressions
MATH = 'sqrt sin sinh asin asinh tan tanh atan atanh ceil floor exp'.split()
def parse_expr(txt, env):
    """env: name -> ('ptr', k) | ('sc', k) | ('expr', lean)"""
    toks = re.findall(r'std::\w+|\w+\[i\]|\(double\)|\(float\)|\d+\.\d+|\d+|\w+|[-+*/(),]', txt)
    assert ''.join(toks) == txt.replace(' ', ''), (toks, txt)
    pos = [0]
    def peek(): return toks[pos[0]] if pos[0] < len(toks) else None
    def nxt(): pos[0] += 1; return toks[pos[0]-1]
    def num(t):
        v = float(t); assert v == int(v); return int(v)
    def atom():
        t = nxt()
        if t in ('(double)', '(float)'): return atom()
        if t == '-':
            t2 = nxt(); return f'(.lit (-{num(t2)}))'
        if t == '(':
            e = expr(); assert nxt() == ')'; return e
        if t.startswith('std::'):
            fn = t[5:]; assert nxt() == '('
            a = expr()
            if fn in ('max', 'min', 'pow'):
                assert nxt() == ','; b = expr(); assert nxt() == ')'
                return f'(.bin .{fn} {a} {b})'
            assert nxt() == ')' and fn in MATH
            return f'(.un .{fn} {a})'
        if t.endswith('[i]'):
            k = env[t[:-3]]; assert k[0] == 'ptr'; return f'(.el {k[1]})'
        if re.match(r'\d', t): return f'(.lit {num(t)})'
        k = env[t]
        return k[1] if k[0] == 'expr' else f'(.sc {k[1]})'
    def term():
        e = atom()
        while peek() in ('*', '/'):
            op = 'mul' if nxt() == '*' else 'div'
            e = f'(.bin .{op} {e} {atom()})'
        return e
    def expr():
        e = term()
        while peek() in ('+', '-'):
            op = 'add' if nxt() == '+' else 'sub'
            e = f'(.bin .{op} {e} {term()})'
        return e
    e = expr(); assert pos[0] == len(toks), txt
    return e

def simp(e):
    return e[1:-1] if e.startswith('(') and e.endswith(')') else e

def parse_stmt(txt, env, N):
    txt = ' '.join(txt.split())
    txt = re.sub(r'#pragma omp (target teams distribute )?parallel for ', '', txt)
    m = re.match(r'^for \(auto i = decltype\(%s\)\{0\}; i < %s; i\+\+\) \{ (\w+)\[i\] = ([^;]*); \}$' % (N, N), txt)
    if m:
        k = env[m.group(1)]; assert k[0] == 'ptr'
        return f'.loop {k[1]} {parse_expr(m.group(2), env)}'
    m = re.match(r'^v[ds]([A-Z]\w*)\((.*)\);$', txt)
    if m:
        a = split_args(m.group(2)); assert a[0] == N
        fn = m.group(1)
        l = {'Add': '.add', 'Sub': '.sub', 'Mul': '.mul', 'Div': '.div', 'Pow': '.pow', 'Powx': '.powx'}.get(fn)
        if l is None: assert fn.lower() in MATH; l = f'(.math .{fn.lower()})'
        return f'.lib {l} [{", ".join(str(env[x][1]) for x in a[1:])}]'
    m = re.search(r'(?:cblas_[ds]|cublas[DS])(copy|axpy|scal)\((.*?)\)\s*\)?;', txt)
    if m:
        a = split_args(m.group(2))
        if a[0] == 'h': a = a[1:]
        assert a[0] == N
        a = [x.lstrip('&') for x in a[1:]]
        # strides must be 1 after each vector
        ps = [x for x in a if x != '1']
        assert a.count('1') == {'copy': 2, 'axpy': 2, 'scal': 1}[m.group(1)]
        return f'.lib .{m.group(1)} [{", ".join(str(env[x][1]) for x in ps)}]'
    raise Exception('stmt: ' + txt)

def branches(body):
    """texts of the GPU, MKL and plain CPU branch of  if (gpu) { #if NVIDIA .. #else throw #endif } else { .. }"""
    m = re.search(r'if \(\w+(?:\.get_device_mem_stat\(\))? == true\) \{\s*#if MONOLISH_USE_NVIDIA_GPU(.*?)#else\s*throw[^;]*;\s*#endif\s*\} else \{(.*)\}\s*$', body.strip(), re.S)
    assert m, body
    gpu, cpu = m.group(1), m.group(2)
    m = re.match(r'\s*#if MONOLISH_USE_MKL(.*?)#else(.*?)#endif\s*$', cpu, re.S)
    return gpu, (m.group(1) if m else cpu), (m.group(2) if m else cpu)

def clean(body):
    for x in ['Logger &logger = Logger::get_instance();']: body = body.replace(x, '')
    body = re.sub(r'logger\.(func|util)_(in\(monolish_func\)|out\(\));', '', body)
    return body

# ---------------------------------------------------------------- kernels
kernels = []
for base in ['arithmetic', 'math']:
    for pr in ['double', 'float']:
        f = f'internal/{base}/{pr}_{base}.cpp'
        for a, b, ret, name, pars, body in functions(R + f, False):
            if ret != 'void' or name == 'vbroadcast': continue
            assert pars[0] == 'const size_t N' and pars[-1] == 'bool gpu_status', pars
            env, kinds = {}, []
            for k, p in enumerate(pars[1:-1]):
                m = re.match(r'^(const )?%s (\*)?(\w+)$' % pr, p); assert m, p
                env[m.group(3)] = ('ptr' if m.group(2) else 'sc', k)
                kinds.append('true' if m.group(2) else 'false')
            body = clean(body)
            m = re.match(r'\s*%s (\w+) = ([^;]*);' % pr, body)
            if m:   # a local constant: inlined
                env[m.group(1)] = ('expr', parse_expr(m.group(2), env))
                body = body[m.end():]
            g, mk, c = branches(body)
            st = [parse_stmt(x, env, 'N') for x in (c, mk, g)]
            kernels.append((f, a, b, name, pr[0] if pr == 'double' else 's', kinds, st))

# ---------------------------------------------------------------- cores
cores = {}     # (scope, name) -> list of (is_crs, def lean, cite)
def add_cores(scope, f, names=None):
    for a, b, ret, name, pars, body in functions(R + f, True):
        if ret != 'void': continue
        if names and name not in names: continue
        idx, kinds, crs = {}, [], False
        for k, p in enumerate(pars):
            m = re.match(r'^(const )?(.*?) ?(&)?(\w+)$', p); assert m, p
            idx[m.group(4)] = k
            if 'CRS<' in m.group(2): crs = True
        body = clean(body)
        checks = []
        while True:
            m = re.match(r'\s*assert\(util::(is_same_size|is_same_structure|is_same_device_mem_stat)\(([^)]*)\)\);', body)
            if not m: break
            ps = [str(idx[x]) for x in split_args(m.group(2))]
            if m.group(1) != 'is_same_device_mem_stat':
                checks.append('.%s [%s]' % ('sameSize' if m.group(1) == 'is_same_size' else 'sameStructure', ', '.join(ps)))
            body = body[m.end():]
        obj = set(re.findall(r'(\w+)\.(?:begin|size|get_nnz)\(\)', body))
        kinds = ['true' if n in obj else 'false' for n in idx]
        m = re.match(r'^\s*internal::(v\w+)\((.*)\);\s*$', body, re.S)
        if m:
            args = split_args(m.group(2))
            n = re.match(r'^(\w+)\.(size|get_nnz)\(\)$', args[0]).group(1)
            assert re.match(r'^\w+\.get_device_mem_stat\(\)$', args[-1])
            ka = []
            for x in args[1:-1]:
                mm = re.match(r'^(\w+)\.begin\(\)$', x)
                ka.append(f'.beg {idx[mm.group(1)]}' if mm else f'.val {idx[x]}')
            bd = f'.call .{m.group(1)}'
            nn = idx[n]
        else:
            # own statements: local pointers, size, branches
            loc, prec, n = {}, None, None
            while True:
                mm = re.match(r'\s*(?:const )?(double|float) \*(\w+) = (\w+)\.begin\(\);', body)
                if mm:
                    loc[mm.group(2)] = mm.group(3)
                    assert prec in (None, mm.group(1)); prec = mm.group(1)
                    body = body[mm.end():]; continue
                mm = re.match(r'\s*auto size = (\w+)\.size\(\);', body)
                if mm: n = mm.group(1); body = body[mm.end():]; continue
                break
            env = {}; ka = []; kk = []
            inv = {v: k for k, v in loc.items()}
            for pn, k in idx.items():
                if pn in inv:
                    env[inv[pn]] = ('ptr', len(ka)); ka.append(f'.beg {k}'); kk.append('true')
                else:
                    env[pn] = ('sc', len(ka)); ka.append(f'.val {k}'); kk.append('false')
            g, mk, c = branches(body)
            st = [parse_stmt(x, env, 'size') for x in (c, mk, g)]
            bd = f'.own ⟨.vadd, .{"d" if prec == "double" else "s"}, [{", ".join(kk)}], {st[0]}, {st[1]}, {st[2]}⟩'
            nn = idx[n]
        lean = f'⟨[{", ".join(kinds)}], [{", ".join(checks)}], {nn}, [{", ".join(ka)}], {bd}⟩'
        cores.setdefault((scope, name), []).append((crs, lean, f'{f}:{a}-{b}'))

for sc, d in [('vec', 'vector'), ('mat', 'matrix'), ('ten', 'tensor')]:
    for f in sorted(glob.glob(R + f'vml/{d}/*/*.hpp')):
        add_cores('vml' + sc, f[len(R):])
for n in 'vecadd vecsub times copy axpy axpyz xpay scal'.split():
    add_cores('vec', f'blas/vector/{n}.hpp')
for sc, fs in [('mat', ['mataddsub/dense_mataddsub', 'mataddsub/crs_mataddsub', 'times/dense_times', 'times/crs_times', 'adds/dense_adds', 'scal/dense_scal', 'scal/crs_scal', 'copy/dense_copy', 'copy/crs_copy']),
               ('ten', ['tensaddsub/tensor_dense_tensaddsub', 'tensaddsub/tensor_crs_tensaddsub', 'times/tensor_dense_times', 'times/tensor_crs_times', 'adds/tensor_dense_adds', 'scal/tensor_dense_scal', 'scal/tensor_crs_scal', 'copy/tensor_dense_copy', 'copy/tensor_crs_copy'])]:
    for f in fs:
        add_cores(sc, f'blas/{"matrix" if sc == "mat" else "tensor"}/{f}.hpp',
                  {'matadd_core', 'matsub_core', 'tensadd_core', 'tenssub_core', 'times_core', 'adds_core', 'mscal_core', 'tscal_core', 'copy_core'})
def cid(k): return f'{k[0]}_{k[1][:-5]}'

o = open(OUT + 'DispatchCores.lean', 'w')
o.write('''import Verif.Model.Dispatch

/-!
Generated by tools/dispatch_gen.py from /repo: the kernels `internal::v*` and the core templates of the
element-wise functions. Do not edit. Calls of the logger and `is_same_device_mem_stat` checks are left out
(host objects only); a local constant (`gamma = beta - alpha` in `valo`) is inlined.
-/

namespace Verif.Dispatch

''')
o.write('/-- the kernels: double and float, with the lines of their definition -/\ndef kernels : List Kern := [\n')
rows = []
for (f, a, b, name, p, kinds, st) in kernels:
    rows.append(f'  -- src/{f}:{a}-{b}\n  ⟨.{name}, .{p}, [{", ".join(kinds)}], {st[0]}, {st[1]}, {st[2]}⟩')
o.write(',\n'.join(rows) + ']\n\n')
o.write('/-- the core templates of the element-wise functions -/\ninductive Core\n')
for k in cores: o.write(f'  | {cid(k)}\n')
o.write('  deriving DecidableEq, Repr\n\n')
for k, ds in cores.items():
    for crs, lean, cite in ds:
        o.write(f'/-- src/{cite} -/\ndef {cid(k)}{"_crs" if crs else ""}_def : CoreDef :=\n  {lean}\n\n')
o.write('/-- the general definition of a core template, and the more specialised one for sparse arguments if any\n(citations at the definitions above) -/\ndef Core.defs : Core → CoreDef × Option CoreDef\n')
for k, ds in cores.items():
    gen = [x for x in ds if not x[0]]; cr = [x for x in ds if x[0]]
    assert len(gen) == 1 and len(cr) <= 1, (k, ds)
    o.write(f'  | .{cid(k)} => ({cid(k)}_def, {"some " + cid(k) + "_crs_def" if cr else "none"})\n')
o.write('\nend Verif.Dispatch\n')
o.close()

# ---------------------------------------------------------------- overloads
OWN = {'vector': '.vec', 'matrix::Dense': '.mat', 'tensor::tensor_Dense': '.ten'}
def parse_ty(t):
    """(lean type, precision)"""
    m = re.match(r'^(vector|matrix::Dense|matrix::CRS|tensor::tensor_Dense|tensor::tensor_CRS)<(double|float)>$', t)
    if m:
        return {'vector': '.vector', 'matrix::Dense': '.dense', 'matrix::CRS': '.crs', 'tensor::tensor_Dense': '.tdense', 'tensor::tensor_CRS': '.tcrs'}[m.group(1)], m.group(2)[0].replace('f', 's')
    m = re.match(r'^(view1D|view_Dense|view_tensor_Dense)<(.*)<(double|float)>, (double|float)>$', t)
    if m:
        assert m.group(3) == m.group(4)
        v = {'view1D': '.view1D', 'view_Dense': '.viewDense', 'view_tensor_Dense': '.viewTDense'}[m.group(1)]
        return f'({v} {OWN[m.group(2)]})', m.group(3)[0].replace('f', 's')
    return None
ABBR = {}
def par_lean(p):
    m = re.match(r'^(const )?(.*?) ?(&)?(\w+)$', p)
    c, t, ref, name = m.groups()
    if t in ('double', 'float'):
        assert not (ref and not c)
        return name, f'.scal .{"d" if t == "double" else "s"}'
    r = parse_ty(t)
    if r is None: return name, None
    assert ref
    return name, f'.obj {r[0]} .{r[1]} {"true" if c else "false"}'

def rows_of(scope, ns, f):
    out = []
    for a, b, ret, name, pars, body in functions(R + f, False):
        if ret != 'void': continue
        body = ' '.join(body.split())
        m = re.match(r'^(\w+)_core\((.*)\);$', body)
        if not m: continue
        if (scope, m.group(1) + '_core') not in cores: continue
        ps = [par_lean(p) for p in pars]
        if any(x[1] is None for x in ps): continue
        names = [x[0] for x in ps]
        args = split_args(m.group(2))
        if any(x not in names for x in args): raise Exception(body)
        out.append((a, b, f'.{ns}_{name}', [x[1] for x in ps], f'.{cid((scope, m.group(1) + "_core"))}', [names.index(x) for x in args]))
    return out

def write_table(fn, tabs):
    """tabs: (lean name, scope, ns, file, only)"""
    o = open(OUT + fn + '.lean', 'w')
    o.write('import Verif.Model.DispatchApi\n\n/-!\nGenerated by tools/dispatch_gen.py from /repo: public overloads of the element-wise functions. Do not edit.\n-/\n\nnamespace Verif.Dispatch\n\n')
    n = 0
    for tn, scope, ns, f in tabs:
        rs = rows_of(scope, ns, f)
        n += len(rs)
        chunks = [rs[i:i+80] for i in range(0, len(rs), 80)]
        for i, ch in enumerate(chunks):
            o.write(f'/-- src/{f}:{ch[0][0]}-{ch[-1][1]} -/\ndef {tn}_{i} : List Overload := [\n')
            o.write(',\n'.join(f'  ⟨{r[2]}, [{", ".join(r[3])}], {r[4]}, {r[5]}⟩' for r in ch))
            o.write(']\n\n')
        o.write(f'/-- the element-wise overloads of src/{f} ({len(rs)} of them) -/\ndef {tn} : List (List Overload) :=\n  [{", ".join(f"{tn}_{i}" for i in range(len(chunks)))}]\n\n')
    o.write('end Verif.Dispatch\n')
    o.close()
    return n

if __name__ == '__main__':
    fns = []
    T = [('DispatchSrcVec', [('tVmlVec', 'vmlvec', 'vml', 'vml/vector/vector_vml.cpp')]),
         ('DispatchSrcMat', [('tVmlMat', 'vmlmat', 'vml', 'vml/matrix/matrix_vml.cpp')]),
         ('DispatchSrcTen', [('tVmlTen', 'vmlten', 'vml', 'vml/tensor/tensor_vml.cpp')]),
         ('DispatchSrcBlas', [('tBlasVec', 'vec', 'blas', 'blas/vector/vector_blas.cpp')] +
            [('tBlasMat' + n, 'mat', 'blas', f'blas/matrix/{d}/{d}.cpp') for n, d in [('AddSub', 'mataddsub'), ('Times', 'times'), ('Adds', 'adds'), ('Scal', 'scal'), ('Copy', 'copy')]] +
            [('tBlasTen' + n, 'ten', 'blas', f'blas/tensor/{d}/{d}.cpp') for n, d in [('AddSub', 'tensaddsub'), ('Times', 'times'), ('Adds', 'adds'), ('Scal', 'scal'), ('Copy', 'copy')]])]
    for fn, tabs in T:
        for tn, scope, ns, f in tabs:
            for r in rows_of(scope, ns, f):
                if r[2] not in fns: fns.append(r[2])
    print('functions:', ' '.join(fns))
    for fn, tabs in T:
        print(fn, write_table(fn, tabs))
