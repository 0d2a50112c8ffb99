"""Extracts the public overloads of the reductions of /repo (asum, sum, nrm1, nrm2, dot, max, min) into a Lean table.
Writes Verif/Model/ReductionSrc.lean."""
import re, os
src = open(os.path.join(os.path.dirname(os.path.abspath(__file__)), 'dispatch_gen.py')).read()
ns = {'re': re, 'OWN': {'vector': '.vec', 'matrix::Dense': '.mat', 'tensor::tensor_Dense': '.ten'}}
for name in ['strip_comments', 'split_args', 'functions', 'parse_ty']:
    exec(re.search(r'^def ' + name + r'\(.*?(?=^\S)', src, re.M | re.S).group(0), ns)
functions, split_args, parse_ty = ns['functions'], ns['split_args'], ns['parse_ty']
R = '/repo/src/'
FN = ['asum', 'sum', 'nrm1', 'nrm2', 'dot', 'max', 'min']
PR = {'double': '.d', 'float': '.s', 'D': '.d', 'S': '.s'}
FILES = [('tBlasVec', 'blas/vector/vector_blas.cpp'), ('tVmlVec', 'vml/vector/vector_vml.cpp'),
         ('tVmlMat', 'vml/matrix/matrix_vml.cpp'), ('tVmlTen', 'vml/tensor/tensor_vml.cpp')]
o = open('/verif/lean/Verif/Model/ReductionSrc.lean', 'w')
o.write('import Verif.Model.Reduction\n\n/-!\nGenerated by tools/reduce_gen.py from /repo: public overloads of the reductions. Do not edit.\n-/\n\nnamespace Verif.Reduction\n\n')
for tn, f in FILES:
    rows, a0, b0 = [], None, None
    for a, b, ret, name, pars, body in functions(R + f, False):
        if name not in FN: continue
        body = ' '.join(body.split())
        ps = []
        for p in pars:
            m = re.match(r'^(const )?(.*?) ?(&)?(\w+)$', p)
            ps.append((m.group(4), m.group(2), bool(m.group(1)), bool(m.group(3))))
        out = 'none'
        if ret == 'void':
            m = re.match(r'^ans = (\w+)\((.*)\);$', body)
            if not m: continue            # element-wise max/min
            assert ps[-1][0] == 'ans' and ps[-1][3] and not ps[-1][2]
            out = f'(some {PR[ps[-1][1]]})'
            ps = ps[:-1]
            names = [x[0] for x in ps]
            bd = f'.call .{m.group(1)} {[names.index(x) for x in split_args(m.group(2))]}'
            pr = None
        else:
            names = [x[0] for x in ps]
            m = re.match(r'^return ([DS])(\w+)_core\((.*)\);$', body)
            if m:
                bd = f'.core .{m.group(2)} {PR[m.group(1)]} none {[names.index(x) for x in split_args(m.group(3))]}'
            else:
                m = re.match(r'^return (\w+)_core<(.*), (double|float)>\((.*)\);$', body)
                t = parse_ty(m.group(2)); assert t[1] == m.group(3)[0].replace('f', 's')
                bd = f'.core .{m.group(1)} {PR[m.group(3)]} (some {t[0]}) {[names.index(x) for x in split_args(m.group(4))]}'
            pr = PR[ret]
        pl = []
        for nme, t, c, r in ps:
            ty = parse_ty(t); assert c and r
            pl.append(f'.obj {ty[0]} .{ty[1]} true')
        ret_ = f'(some {pr})' if pr else 'none'
        rows.append(f'  -- src/{f}:{a}-{b}\n  ⟨.{name}, [{", ".join(pl)}], {ret_}, {out}, {bd}⟩')
        a0 = a0 or a; b0 = b
    o.write(f'/-- src/{f} ({len(rows)} overloads) -/\ndef {tn} : List Overload := [\n' + ',\n'.join(rows) + ']\n\n')
    print(tn, len(rows))
o.write(f'/-- all overloads of the reductions -/\ndef reductions : List Overload := {" ++ ".join(t for t, _ in FILES)}\n\nend Verif.Reduction\n')
o.close()
