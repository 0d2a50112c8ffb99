import re,glob,sys
def preprocess(src):
    out=[];stack=[]
    lines=src.split('\n'); i=0
    while i<len(lines):
        l=lines[i]; s=l.strip()
        if s.startswith('#'):
            full=s; n=1
            while full.endswith('\\'):
                i+=1; full=full[:-1]+lines[i].strip(); n+=1
            m=re.match(r'#\s*(\w+)\s*(.*)',full)
            d,a=m.group(1),m.group(2)
            def ev(a):
                a=re.sub(r'//.*','',a)
                a=re.sub(r'defined\s*\(?\s*\w+\s*\)?','0',a)
                a=re.sub(r'[A-Za-z_]\w*','0',a)
                a=a.replace('&&',' and ').replace('||',' or ').replace('!',' not ')
                return bool(eval(a))
            act=all(x[0] for x in stack)
            if d in('if','ifdef','ifndef'):
                v={'if':lambda:ev(a),'ifdef':lambda:False,'ifndef':lambda:True}[d]()
                stack.append([v,v])
            elif d=='else': stack[-1][0]=not stack[-1][1]
            elif d=='elif':
                v=(not stack[-1][1]) and ev(a); stack[-1][0]=v; stack[-1][1]|=v
            elif d=='endif': stack.pop()
            out+=['']*n
        else:
            out.append(l if all(x[0] for x in stack) else '')
        i+=1
    return '\n'.join(out)
def strip(src):
    def rep(m):
        s=m.group(0)
        if s.startswith('/'): return re.sub(r'[^\n]',' ',s)
        return '""' if s[0]=='"' else "' '"
    return re.sub(r'//[^\n]*|/\*.*?\*/|"(?:\\.|[^"\\\n])*"|\'(?:\\.|[^\'\\\n])\'',rep,src,flags=re.S)
TOK=re.compile(r'\s+|([A-Za-z_]\w*|\d[\w.]*|""|\' \'|::|->|.)',re.S)
def toks(s):
    r=[];line=1
    for m in re.finditer(TOK,s):
        if m.group(1): r.append((m.group(1),line))
        line+=m.group(0).count('\n')
    return r
OPEN={'(':')','{':'}','[':']'}
class P:
    def __init__(s,t,i): s.t=t;s.i=i
    def pk(s,k=0): return s.t[s.i+k][0]
    def skipgrp(s):
        d=0
        while True:
            c=s.pk()
            if c in OPEN: d+=1
            elif c in OPEN.values(): d-=1
            s.i+=1
            if d==0: return
    def block(s):
        assert s.pk()=='{'; s.i+=1; r=[]
        while s.pk()!='}': r.append(s.stmt())
        s.i+=1
        return seq(r)
    def expr(s):
        call=False
        while s.pk()!=';':
            if s.pk() in OPEN:
                if s.pk()=='(': call=True
                s.skipgrp()
            else: s.i+=1
        s.i+=1
        return call
    def stmt(s):
        c=s.pk()
        if c=='{': return s.block()
        if c=='if':
            s.i+=1
            if s.pk()=='constexpr': s.i+=1
            s.skipgrp(); a=s.stmt(); b=SKIP
            if s.pk()=='else': s.i+=1; b=s.stmt()
            return seq([OP,('ite',a,b)])
        if c in('for','while'):
            s.i+=1; s.skipgrp(); a=s.stmt(); return ('loop',seq([OP,a]))
        if c=='do':
            s.i+=1; a=s.stmt(); assert s.pk()=='while'; s.i+=1; s.skipgrp(); s.i+=1; return ('loop',seq([a,OP]))
        if c=='switch':
            s.i+=1; s.skipgrp(); assert s.pk()=='{'; s.i+=1
            segs=[];cur=[];ended=True;hasdef=False
            while s.pk()!='}':
                if s.pk() in('case','default'):
                    if s.pk()=='default': hasdef=True
                    if cur:
                        assert ended,'fallthrough'
                        segs.append(seq(cur)); cur=[]
                    while s.pk()!=':': s.i+=1
                    s.i+=1
                elif s.pk()=='break': s.i+=2; ended=True
                else:
                    x=s.stmt(); cur.append(x); ended= x[-1:] in(('ret',),('thr',)) or x in(RET,THR) or (x[0]=='seq' and x[2] in(RET,THR))
            s.i+=1
            if cur: segs.append(seq(cur))
            r=SKIP if not hasdef else segs.pop()
            for x in reversed(segs): r=('ite',x,r)
            return seq([OP,r])
        if c=='return':
            s.i+=1; k=s.expr(); return seq([OP,RET]) if k else RET
        if c=='throw': s.expr(); return THR
        if c in('break','continue'): s.i+=2; return ('brk',)
        if c=='try' or c=='goto': raise Exception(c)
        if c==';': s.i+=1; return SKIP
        if c=='logger' and s.pk(1)=='.':
            m=re.match(r'(util|func|solver)_(in|out)$',s.pk(2))
            line=s.t[s.i][1]; s.expr()
            return ('enter' if m.group(2)=='in' else 'leave',m.group(1),line)
        if c=='Logger': s.expr(); return SKIP
        if c in('using','typedef'): s.expr(); return SKIP
        k=s.expr()
        return OP
OP=('op',);SKIP=('skip',);RET=('ret',);THR=('thr',)
def seq(l):
    f=[]
    def add(x):
        if x[0]=='seq': add(x[1]); add(x[2])
        elif x==SKIP: pass
        elif x==OP and f and f[-1]==OP: pass
        else: f.append(x)
    for x in l: add(x)
    if not f: return SKIP
    r=f[-1]
    for x in reversed(f[:-1]): r=('seq',x,r)
    return r
def simp(x):
    if x[0]=='seq': return seq([simp(x[1]),simp(x[2])])
    if x[0]=='ite':
        a,b=simp(x[1]),simp(x[2])
        if a in(OP,SKIP) and b in(OP,SKIP): return OP
        return ('ite',a,b)
    if x[0]=='loop':
        a=simp(x[1])
        return OP if a in(OP,SKIP) else ('loop',a)
    return x
def lean(x):
    k=x[0]
    if k in('op','skip','ret','thr','brk'): return '.'+k
    if k=='enter': return '(.enter .%s)'%x[1]
    if k=='leave': return '(.leave .%s)'%x[1]
    if k=='loop': return '(.loop %s)'%lean(x[1])
    if k=='seq':
        f=[];y=x
        while y[0]=='seq': f.append(y[1]); y=y[2]
        f.append(y)
        return '(seqs ['+', '.join(lean(z) for z in f)+'])'
    return '(.%s %s %s)'%(k,lean(x[1]),lean(x[2]))
def chk(x,st):
    k=x[0]
    if k in('op','skip'): return st
    if k=='enter': return [x[1]]+st
    if k=='leave':
        if not st or st[0]!=x[1]: raise ValueError('leave %s at %s'%(x[1],st))
        return st[1:]
    if k=='ret':
        if st: raise ValueError('ret with %s'%st)
        return None
    if k in('thr',): return None
    if k=='brk': return 'BRK'
    if k=='seq':
        a=chk(x[1],st)
        if a is None: return None
        return chk(x[2],a)
    if k=='ite':
        a=chk(x[1],st);b=chk(x[2],st)
        if a is None: return b
        if b is None: return a
        if a!=b: raise ValueError('branch')
        return a
    if k=='loop':
        a=chk(x[1],st)
        if a is not None and a!='BRK' and a!=st: raise ValueError('loop')
        return st
def functions():
    files=sorted(glob.glob('/repo/src/**/*.cpp',recursive=True)+glob.glob('/repo/src/**/*.hpp',recursive=True))
    for f in files:
        src=open(f,errors='replace').read()
        if not re.search(r'logger\.(util|func|solver)_',src): continue
        t=toks(strip(preprocess(src)))
        # scan brace tree
        i=0;n=len(t);start=0
        stack=[]
        while i<n:
            c=t[i][0]
            if c=='{':
                # header tokens
                j=i-1;h=[]
                while j>=0 and t[j][0] not in(';','{','}'): h.append(t[j][0]); j-=1
                h=h[::-1]
                if 'namespace' in h or (h and h[0] in('class','struct','enum','extern')) :
                    i+=1; continue
                p=P(t,i); line=t[j+1][1]
                k=i; p2=P(t,i); p2.skipgrp(); end=p2.i
                body=t[i:end]
                if any(x[0]=='logger' for x in body):
                    code=p.block(); assert p.i==end,(f,line)
                    name=None
                    for q in range(len(h)):
                        if h[q]=='(':
                            name=h[q-1]
                            if 'operator' in h[:q]:
                                name='operator'+''.join(h[h.index('operator')+1:q])
                            r=q-1
                            if r-1>=0 and h[r-1]=='::': 
                                z=r-2
                                if h[z]=='>':
                                    while h[z]!='<': z-=1
                                    z-=1
                                name=h[z]+'::'+name
                            break
                    outs=[x[1] for x in body]
                    yield f[6:],line,t[end-1][1],name,simp(code)
                i=end; continue
            i+=1
if __name__=='__main__':
    from collections import Counter
    C=Counter();bad=0
    for f,l,e,name,code in functions():
        C[lean(code)]+=1
        try:
            r=chk(code,[])
            if r not in(None,[]): raise ValueError('end with %s'%r)
        except ValueError as er: bad+=1; print(f,l,name,er)
    print(sum(C.values()),len(C),bad)
    for k,v in C.most_common(12): print(v,k[:150])
