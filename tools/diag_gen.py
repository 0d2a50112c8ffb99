"""Extracts the members diag_add, diag_sub, diag_mul, diag_div of /repo (all classes, precisions and argument types) and
the operators of their kernels into Lean tables.  Writes Verif/Model/DiagSrc.lean."""
import re, os
src = open(os.path.join(os.path.dirname(os.path.abspath(__file__)), 'dispatch_gen.py')).read()
ns = {'re': re, 'OWN': {'vector': '.vec', 'matrix::Dense': '.mat', 'tensor::tensor_Dense': '.ten'}}
for name in ['strip_comments', 'split_args', 'functions', 'parse_ty', 'par_lean']:
    exec(re.search(r'^def ' + name + r'\(.*?(?=^\S)', src, re.M | re.S).group(0), ns)
parse_ty = ns['parse_ty']
R = '/repo/src/blas/'
OPS = ['add', 'sub', 'mul', 'div']
TOK = {'+=': 'add', '-=': 'sub', '*=': 'mul', '/=': 'div'}
FAM = [('Dense', 'dense', 'matrix/diag_op/dense_diag_%s.cpp', 'matrix/diag_op/dense_diag_op.hpp', 'Dense'),
       ('CRS', 'crs', 'matrix/diag_op/crs_diag_%s.cpp', 'matrix/diag_op/crs_diag_op.hpp', 'Crs'),
       ('tensor_Dense', 'tdense', 'tensor/diag_op/tensor_dense_diag_%s.cpp', 'tensor/diag_op/tensor_dense_diag_op.hpp', 'Ten')]
o = open('/verif/lean/Verif/Model/DiagSrc.lean', 'w')
o.write('import Verif.Model.Diag\n\n/-!\nGenerated by tools/diag_gen.py from /repo: the members diag_add, diag_sub, diag_mul, diag_div and the operators of their kernels. Do not edit.\n-/\n\nnamespace Verif.Diag\n\n')
kern = []
for pre, cls, _, hpp, _ in FAM:
    t = open(R + hpp).read()
    for m in re.finditer(r'^void ' + pre + r'_diag_(\w+)_core\(\s*(?:TENS|MAT1|MAT|.*?) &(\w+), ([^)]*)\)\s*\{(.*?)^\}', t, re.M | re.S):
        a = t[:m.start()].count('\n') + 1
        b = a + m.group(0).count('\n')
        form = 'vec' if 'size_t' in m.group(3) else 'scal'
        ops = re.findall(r'(vald\[[^\]]*\]|vald\[.*?\])\s*([-+*/]=)\s*([^;]*);', m.group(4))
        assert len(ops) == 2 and ops[0] == ops[1], (m.group(1), ops)
        rhs = ' '.join(ops[0][2].split())
        assert rhs == ('alpha' if form == 'scal' else 'vecd[i]'), rhs
        kern.append((hpp, a, b, cls, m.group(1), form, TOK[ops[0][1]]))
assert len(kern) == 24, len(kern)
names, tot = [], 0
for pre, cls, cpp, _, tag in FAM:
    for op in OPS:
        f = R + cpp % op
        t = ns['strip_comments'](open(f).read())
        rows, first, last = [], None, None
        for m in re.finditer(r'template <>\s*void\s+([\w:<>, \n]*?)::\s*(diag_\w+)\(([^)]*)\)\s*\{(.*?)\}', t, re.S):
            first = first or t[:m.start()].count('\n') + 1
            last = t[:m.end()].count('\n') + 1
            c = re.sub(r'\s+', ' ', m.group(1)).replace('monolish::', '', 1)
            ty, p = parse_ty(c)
            a = re.sub(r'\s+', ' ', m.group(3)).strip()
            ms = re.match(r'^const (double|float) alpha$', a)
            if ms: arg = '.scal ' + {'double': '.d', 'float': '.s'}[ms.group(1)]
            else:
                mv = re.match(r'^const (.*) &\s?vec$', a)
                vt, vp = parse_ty(mv.group(1))
                arg = f'.obj {vt} .{vp} true'
            body = re.sub(r'\s+', ' ', m.group(4)).strip()
            mb = re.match(r'^(Dense|CRS|tensor_Dense)_diag_(\w+)_core\(\*this, (alpha|vec\.size\(\), vec\.begin\(\))\);$', body)
            core = {x[0]: x[1] for x in FAM}[mb.group(1)]
            form = 'scal' if mb.group(3) == 'alpha' else 'vec'
            rows.append(f'  ⟨.{m.group(2)[5:]}, {ty}, .{p}, {arg}, .{core}, .{mb.group(2)}, .{form}⟩')
        assert len(rows) == len(re.findall(r'diag_(?:add|sub|mul|div)\(', t)), (f, len(rows), len(re.findall(r'diag_(?:add|sub|mul|div)\(', t)))
        n = f't{tag}{op.capitalize()}'
        names.append(n); tot += len(rows)
        o.write(f'/-- src/blas/{cpp % op}:{first}-{last} -/\ndef {n} : List Overload := [\n' + ',\n'.join(rows) + ']\n\n')
o.write(f'/-- all members ({tot}) -/\ndef members : List Overload :=\n  ({" ++ ".join(names)})\n\n')
o.write('/-- the operator of the loop (`+=`, `-=`, `*=`, `/=`) in each kernel:\n' + ',\n'.join(f'src/blas/{k[0]}:{k[1]}-{k[2]}' for k in kern) + ' -/\ndef kernels : List (Core × Op × Form × Op) := [\n' + ',\n'.join(f'  (.{k[3]}, .{k[4]}, .{k[5]}, .{k[6]})' for k in kern) + ']\n\nend Verif.Diag\n')
o.close()
print(tot, len(kern))
