"""Extracts the public overloads of times_row, times_col, adds_row, adds_col of /repo into a Lean table.
Writes Verif/Model/LineOpSrc.lean."""
import re, os
src = open(os.path.join(os.path.dirname(os.path.abspath(__file__)), 'dispatch_gen.py')).read()
ns = {'re': re, 'OWN': {'vector': '.vec', 'matrix::Dense': '.mat', 'tensor::tensor_Dense': '.ten'}}
for name in ['strip_comments', 'split_args', 'functions', 'parse_ty', 'par_lean']:
    exec(re.search(r'^def ' + name + r'\(.*?(?=^\S)', src, re.M | re.S).group(0), ns)
functions, split_args, par_lean = ns['functions'], ns['split_args'], ns['par_lean']
R = '/repo/src/'
FN = ['times_row', 'times_col', 'adds_row', 'adds_col']
PR = {None: 'none', '<double>': '(some .d)', '<float>': '(some .s)'}
FILES = [('tMatTimes', 'blas/matrix/times/times.cpp'), ('tMatAdds', 'blas/matrix/adds/adds.cpp'),
         ('tTenTimes', 'blas/tensor/times/times.cpp'), ('tTenAdds', 'blas/tensor/adds/adds.cpp')]
o = open('/verif/lean/Verif/Model/LineOpSrc.lean', 'w')
o.write('import Verif.Model.LineOp\n\n/-!\nGenerated by tools/line_gen.py from /repo: public overloads of the row and column operations. Do not edit.\n-/\n\nnamespace Verif.LineOp\n\n')
for tn, f in FILES:
    rows = []
    for a, b, ret, name, pars, body in functions(R + f, False):
        if name not in FN: continue
        assert ret == 'void'
        body = ' '.join(body.split())
        m = re.match(r'^(\w+)_core(<\w+>)?\((.*)\);$', body)
        ps = []
        for p in pars:
            if re.match(r'^(const )?size_t &?\w+$', p):
                ps.append((p.split()[-1].lstrip('&'), '.num'))
            else:
                n, l = par_lean(p); assert l, p
                m2 = re.match(r'^\.obj (.*) (\.[ds]) (true|false)$', l)
                ps.append((n, f'.obj {m2.group(1)} {m2.group(2)} {m2.group(3)}'))
        names = [x[0] for x in ps]
        args = [names.index(x) for x in split_args(m.group(3))]
        rows.append((a, b, f'  ⟨.{name}, [{", ".join(x[1] for x in ps)}], .{m.group(1)}, {PR[m.group(2)]}, {args}⟩'))
    chunks = [rows[i:i+80] for i in range(0, len(rows), 80)]
    for i, ch in enumerate(chunks):
        o.write(f'/-- src/{f}:{ch[0][0]}-{ch[-1][1]} -/\ndef {tn}_{i} : List Overload := [\n' + ',\n'.join(r[2] for r in ch) + ']\n\n')
    o.write(f'/-- the row and column operations of src/{f} ({len(rows)} overloads) -/\ndef {tn} : List (List Overload) :=\n  [{", ".join(f"{tn}_{i}" for i in range(len(chunks)))}]\n\n')
    print(tn, len(rows))
o.write(f'/-- all row and column operations -/\ndef lines : List Overload := ({" ++ ".join(t for t, _ in FILES)}).flatten\n\nend Verif.LineOp\n')
o.close()
