"""LALR(1) construction, isomorphism with the bison tables, conflict list."""
from bisontab import T,C
from grammar import R,NT,names,prec,ruleprec
import sys
NSYM=NT+C['YYNNTS']
byl={}
for i,(l,r) in enumerate(R):
    if i>0: byl.setdefault(l,[]).append(i)
# nullable / first
nullable=set(); ch=True
while ch:
    ch=False
    for i,(l,r) in enumerate(R):
        if i and l not in nullable and all(x in nullable for x in r): nullable.add(l);ch=True
first={x:1<<x for x in range(NT)}
for x in range(NT,NSYM): first[x]=0
ch=True
while ch:
    ch=False
    for i,(l,r) in enumerate(R):
        if not i: continue
        f=first[l]
        for x in r:
            f|=first[x]
            if x not in nullable: break
        if f!=first[l]: first[l]=f;ch=True
def first_seq(seq,la):
    f=0
    for x in seq:
        f|=first[x]
        if x not in nullable: return f
    return f|la
# bison transitions
P=T['yypact'];TB=T['yytable'];CK=T['yycheck'];DA=T['yydefact'];PG=T['yypgoto'];DG=T['yydefgoto'];LAST=C['YYLAST']
NINF=C['YYPACT_NINF'];TNINF=C['YYTABLE_NINF'];FINAL=C['YYFINAL'];NS=C['YYNSTATES']
def action(s,a):
    """('s',st)|('r',rule)|('e',)"""
    n=P[s]
    if n!=NINF:
        n+=a
        if 0<=n<=LAST and CK[n]==a:
            v=TB[n]
            if v<=0:
                if v==TNINF: return ('e',)
                return ('r',-v) if v!=0 else ('e',)
            return ('s',v)
    d=DA[s]
    return ('r',d) if d else ('e',)
def goto(s,N):
    n=PG[N-NT]+s
    if 0<=n<=LAST and CK[n]==s: return TB[n]
    return DG[N-NT]
# LR0 kernels per bison state
def closure_nts(kern):
    seen=set();st=[]
    for (r,k) in kern:
        rhs=R[r][1]
        if k<len(rhs) and rhs[k]>=NT: st.append(rhs[k])
    while st:
        x=st.pop()
        if x in seen: continue
        seen.add(x)
        for r in byl[x]:
            if R[r][1] and R[r][1][0]>=NT: st.append(R[r][1][0])
    return seen
kernels={0:frozenset([(1,0)])}
trans={}
work=[0]; bykern={kernels[0]:0}
notable=[]
pending=[]
def items(s):
    k=kernels[s]
    return set(k)|{(r,0) for x in closure_nts(k) for r in byl[x]}
# pure LR0 first
lr0=[kernels[0]];idx={kernels[0]:0};tr=[]
i=0
while i<len(lr0):
    k=lr0[i];it=set(k)|{(r,0) for x in closure_nts(k) for r in byl[x]}
    d={}
    for (r,p) in it:
        if p<len(R[r][1]): d.setdefault(R[r][1][p],set()).add((r,p+1))
    row={}
    for x,ks in d.items():
        f=frozenset(ks)
        if f not in idx: idx[f]=len(lr0);lr0.append(f)
        row[x]=idx[f]
    tr.append(row);i+=1
if __name__=='__main__': print('lr0',len(lr0),'bison',NS)
# map to bison numbers following transitions (skip those removed)
mp={0:0};st=[0];removed=[]
while st:
    s=st.pop();b=mp[s]
    for x,t in tr[s].items():
        if x<NT:
            a=action(b,x)
            if a[0]!='s':
                if s==0 or True: removed.append((s,x,a))
                continue
            nb=a[1]
        else: nb=goto(b,x)
        if t in mp: assert mp[t]==nb,(s,x,t,mp[t],nb)
        else: mp[t]=nb;st.append(t)
inv={v:k for k,v in mp.items()}
assert len(inv)==len(mp)
if __name__=='__main__':
    print('mapped',len(mp)); 
    print('removed shifts',len(removed))
# LALR lookaheads by propagation over (lr0 state,item)
LA={}
def add(key,m):
    o=LA.get(key,0)
    if o|m!=o or key not in LA:
        LA[key]=o|m;return True
    return False
LA[(0,(1,0))]=0  # $accept: . input $end ; lookahead irrelevant
work=[(0,(1,0))]
while work:
    s,(r,p)=work.pop();m=LA[(s,(r,p))]
    rhs=R[r][1]
    if p<len(rhs):
        x=rhs[p]
        key=(tr[s][x],(r,p+1))
        if add(key,m): work.append(key)
        if x>=NT:
            f=first_seq(rhs[p+1:],m)
            for q in byl[x]:
                key=(s,(q,0))
                if add(key,f): work.append(key)
def bits(m): return [i for i in range(NT) if m>>i&1]
if __name__=='__main__':
    confl={}
    for s in range(len(lr0)):
        if s not in mp: continue
        b=mp[s]
        its=[it for (t,it) in LA if t==s]
        for a in range(NT):
            reds=[r for (r,p) in its if p==len(R[r][1]) and LA[(s,(r,p))]>>a&1]
            sh=a in tr[s]
            act=action(b,a)
            n=len(reds)+(1 if sh else 0)
            if n==0: continue
            if n>1:
                confl.setdefault((b,tuple(reds)),[]).append((names[a],sh,act[0]))
            elif sh:
                if r==1: continue
                if act[0]!='s': print('missing shift',b,names[a],act)
            else:
                if act!=('r',reds[0]): print('wrong red',b,names[a],act,reds)
    for (b,rd),l in sorted(confl.items()):
        print(b,[ (r,names[R[r][0]],[names[x] for x in R[r][1]]) for r in rd])
        print('    ',' '.join(f"{n}:{a}" for n,sh,a in l))
    print(len(confl))
    ni=len(LA);print('LR items total',ni,'kernel',sum(len(k) for k in lr0))
