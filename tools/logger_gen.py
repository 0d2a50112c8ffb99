import sys; sys.path.insert(0,'/verif/tools')
from logger_extract import *
class Bad(Exception): pass
def chk2(b,x,s):
    k=x[0]
    if k in('op','skip'): return s
    if k=='enter': return (x[1],)+s
    if k=='leave':
        if not s or s[0]!=x[1]: raise Bad
        return s[1:]
    if k=='seq':
        a=chk2(b,x[1],s)
        return None if a is None else chk2(b,x[2],a)
    if k=='ite':
        a=chk2(b,x[1],s);c=chk2(b,x[2],s)
        if a is None: return c
        if c is None: return a
        if a!=c: raise Bad
        return a
    if k=='loop':
        a=chk2(s,x[1],s)
        if a is not None and a!=s: raise Bad
        return s
    if k=='ret':
        if s: raise Bad
        return None
    if k=='thr': return None
    if k=='brk':
        if s!=b: raise Bad
        return None
good=[];bad=[];shapes={}
for f,l,e,name,code in functions():
    try:
        r=chk2((),code,()); ok=r in(None,())
    except Bad: ok=False
    L=lean(code)
    if L not in shapes: shapes[L]=(len(shapes),f,l,e)
    (good if ok else bad).append((f,l,e,name,shapes[L][0]))
o=open('/verif/lean/Verif/Model/LoggerSrc.lean','w')
o.write('''import Verif.Model.LoggerCode

/-!
# The logged functions of the library

All functions under `/repo/src` that call the logger, reduced to skeletons.  This file is generated from the
source text by a script: comments are dropped, conditional compilation is resolved with every feature macro
off (the CPU build without MPI), and every statement that is not a logger call, a branch, a loop, a jump, a
`return` or a `throw` becomes `op`; lambda expressions are part of the statement that contains them; a
`switch` is a sequence of branches.  Each entry gives the file and the lines of the function.  Functions with
the same skeleton share a definition.
-/

namespace Verif
namespace Log

''')
for L,(i,f,l,e) in shapes.items():
    o.write('/-- Skeleton of, among others, `%s:%d-%d`. -/\ndef sk%d : Code :=\n  %s\n\n'%(f,l,e,i,'\n  '.join(__import__('textwrap').wrap(L,98,break_long_words=False))))
def emit(nm,doc,lst):
    o.write('/-- %s -/\ndef %s : List Fn := [\n'%(doc,nm))
    o.write(',\n'.join('  ⟨"%s", %d, %d, "%s", sk%d⟩'%x for x in lst))
    o.write('\n]\n\n')
N=100
parts=[good[i:i+N] for i in range(0,len(good),N)]
for i,p in enumerate(parts): emit('fns%d'%i,'Logged functions, part %d (file and lines in each entry).'%i,p)
o.write('/-- The logged functions of `/repo/src` (file and lines in each entry), except those in `exceptions`. -/\ndef functions : List Fn :=\n  '+' ++ '.join('fns%d'%i for i in range(len(parts)))+'\n\n')
emit('exceptions','The logged functions of `/repo/src` (file and lines in each entry) in which a path to a `return` is not balanced.',bad)
o.write('end Log\nend Verif\n')
print(len(good),len(bad),len(shapes))
from collections import Counter
inv={v[0]:k for k,v in shapes.items()}
for i,n in Counter(x[4] for x in bad).most_common(): print(n,i,inv[i][:300],[x[3] for x in bad if x[4]==i][:3])
