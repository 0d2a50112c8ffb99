"""Extracts the public overloads of the matrix/vector/tensor products of /repo into a Lean table.
Writes Verif/Model/ProductSrc.lean."""
import re, sys, os
sys.path.insert(0, os.path.dirname(__file__))
import importlib.util
src = open(os.path.join(os.path.dirname(os.path.abspath(__file__)), 'dispatch_gen.py')).read()
ns = {'__name__': 'dispatch_gen', '__file__': 'x'}
# only the helper functions of dispatch_gen.py (no output files are written by these)
for name in ['strip_comments', 'split_args', 'functions', 'parse_ty', 'par_lean']:
    m = re.search(r'^def ' + name + r'\(.*?(?=^\S)', src, re.M | re.S)
    exec(m.group(0), ns)
    globals()[name] = ns[name]
ns.update(re=re, OWN={'vector': '.vec', 'matrix::Dense': '.mat', 'tensor::tensor_Dense': '.ten'})
R = '/repo/src/'
OUT = '/verif/lean/Verif/Model/ProductSrc.lean'
CORE = {'matvec': 'matvec', 'tensvec': 'tensvec', 'Dense_Dense_matmul': 'matmul_dense', 'CRS_Dense_matmul': 'matmul_crs',
        'tensor_Dense_Dense_tensmat': 'tensmat_dense', 'tensor_CRS_Dense_tensmat': 'tensmat_crs',
        'Dense_tensor_Dense_mattens': 'mattens_dense', 'CRS_tensor_Dense_mattens': 'mattens_crs',
        'tensor_Dense_tensor_Dense_tensmul': 'tensmul_dense', 'tensor_CRS_tensor_Dense_tensmul': 'tensmul_crs'}
LIT = {'1.0': '.one', '0.0': '.zero', 'true': '.tt', 'false': '.ff'}
FILES = [('tMatvec', 'blas/matrix/matvec/matvec_blas.cpp'), ('tMatmul', 'blas/matrix/matmul/matmul_blas.cpp'),
         ('tTensvec', 'blas/tensor/tensvec/tensvec_blas.cpp'), ('tTensmat', 'blas/tensor/tensmat/tensmat_blas.cpp'),
         ('tMattens', 'blas/tensor/mattens/mattens_blas.cpp'), ('tTensmul', 'blas/tensor/tensmul/tensmul_blas.cpp')]
o = open(OUT, 'w')
o.write('import Verif.Model.Product\n\n/-!\nGenerated by tools/product_gen.py from /repo: public overloads of the product functions (those taking a\n`LinearOperator` are left out). Do not edit.\n-/\n\nnamespace Verif.Product\n\n')
for tn, f in FILES:
    rows, skipped = [], 0
    for a, b, ret, name, pars, body in functions(R + f, False):
        assert ret == 'void'
        if any('LinearOperator' in p for p in pars): skipped += 1; continue
        body = ' '.join(body.split())
        m = re.match(r'^(\w+)_core\((.*)\);$', body)
        mm = re.match(r'^(.*?)([DS])(matvec|tensvec|matmul|tensmat|mattens|tensmul)$', m.group(1))
        core, prec = CORE[mm.group(1) + mm.group(3)], {'D': '.d', 'S': '.s'}[mm.group(2)]
        ps = [par_lean(p) for p in pars]
        assert all(x[1] for x in ps), pars
        names = [x[0] for x in ps]
        args = [LIT[x] if x in LIT else f'.par {names.index(x)}' for x in split_args(m.group(2))]
        rows.append((a, b, f'  ⟨.{name}, [{", ".join(x[1] for x in ps)}], .{core}, {prec}, [{", ".join(args)}]⟩'))
    chunks = [rows[i:i+80] for i in range(0, len(rows), 80)]
    for i, ch in enumerate(chunks):
        o.write(f'/-- src/{f}:{ch[0][0]}-{ch[-1][1]} -/\ndef {tn}_{i} : List Overload := [\n' + ',\n'.join(r[2] for r in ch) + ']\n\n')
    o.write(f'/-- the product overloads of src/{f} ({len(rows)} of them; {skipped} with a LinearOperator left out) -/\ndef {tn} : List (List Overload) :=\n  [{", ".join(f"{tn}_{i}" for i in range(len(chunks)))}]\n\n')
    print(tn, len(rows), skipped)
o.write(f'/-- all product overloads -/\ndef products : List Overload := ({" ++ ".join(t for t, _ in FILES)}).flatten\n\nend Verif.Product\n')
o.close()
