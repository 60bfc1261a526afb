"""Compute and check (in Python) the certificates that are later checked by the Lean kernel."""
from lalr import *
inv={v:k for k,v in mp.items()}
K={}   # bison state -> list (r,k,L)
Pd={}  # bison state -> dict A -> L
for (s,(r,k)),m in LA.items():
    b=mp[s]
    if k>0 or r==1: K.setdefault(b,[]).append((r,k,m))
    else:
        d=Pd.setdefault(b,{}); d[R[r][0]]=d.get(R[r][0],0)|m
for b in range(NS):
    K[b].sort(); Pd.setdefault(b,{})
allm=(1<<NT)-1
def rows(s):
    d={}
    for a in range(NT):
        act=action(s,a); d[act]=d.get(act,0)|(1<<a)
    return d
ROWS=[rows(s) for s in range(NS)]
def prule(r): return ruleprec(r)
starts={}  # X -> mask of tokens a with a rule X a ...
for i,(l,rhs) in enumerate(R):
    if i and len(rhs)>=2 and rhs[0]>=NT and rhs[1]<NT: starts[rhs[0]]=starts.get(rhs[0],0)|(1<<rhs[1])
def FR(r,a):
    rhs=R[r][1]
    if not rhs or rhs[-1]<NT: return False
    p=prule(r); q=prec.get(a)
    if not p or not q or not starts.get(rhs[-1],0)>>a&1: return False
    return q[0]>p[0] or (q[0]==p[0] and q[1]!='left')
def FS(r,a):
    rhs=R[r][1]
    if not rhs or rhs[-1]<NT: return False
    p=prule(r); q=prec.get(a)
    if not p or not q or not starts.get(rhs[-1],0)>>a&1: return False
    return q[0]<p[0] or (q[0]==p[0] and q[1]!='right')
FRm=[0]+[sum(1<<a for a in range(NT) if FR(r,a)) for r in range(1,len(R))]
FSm=[0]+[sum(1<<a for a in range(NT) if FS(r,a)) for r in range(1,len(R))]
if __name__=='__main__':
    for r in range(1,len(R)):
        if FRm[r] or FSm[r]: print(r,names[R[r][0]],[names[x] for x in R[r][1]],'FR',[names[a] for a in bits(FRm[r])],'FS',[names[a] for a in bits(FSm[r])])
    kL=lambda s,r,k: next((L for (r2,k2,L) in K[s] if (r2,k2)==(r,k)),None)
    nitems=0
    for s in range(NS):
        if s==69: continue
        its=list(K[s])+[(r,0,L) for A,L in Pd[s].items() for r in byl[A]]
        nitems+=len(its)
        for (r,k,L) in its:
            rhs=R[r][1]
            if k==len(rhs):
                ok=L&~(ROWS[s].get(('r',r),0)|FRm[r])==0
                if not ok: print('red',s,r,[names[a] for a in bits(L&~(ROWS[s].get(('r',r),0)|FRm[r]))])
            else:
                X=rhs[k]
                if X<NT:
                    act=action(s,X)
                    if act[0]!='s':
                        if k!=1: print('shift blocked',s,r,k)
                    else:
                        L2=kL(act[1],r,k+1)
                        if L2 is None or L&~L2: print('shift L',s,r,k)
                else:
                    L2=kL(goto(s,X),r,k+1)
                    if L2 is None or L&~L2: print('goto L',s,r,k)
                    if first_seq(rhs[k+1:],L)&~Pd[s].get(X,0): print('pred',s,r,k)
        # soundness
        edges=[(act[1],a) for act,m in ROWS[s].items() if act[0]=='s' for a in bits(m)]+[(goto(s,A),A) for A in Pd[s]]
        for t,X in edges:
            if T['yystos'][t]!=X: print('stos',s,t,X)
            for (r,k,_) in K[t]:
                if not(k>=1 and R[r][1][k-1]==X and (R[r][0] in Pd[s] or r==1 and s==0 if k==1 else kL(s,r,k-1) is not None)): print('edge',s,t,X,r,k)
        for act,m in ROWS[s].items():
            if act[0]=='r':
                r=act[1];n=len(R[r][1])
                if not ((n==0 and R[r][0] in Pd[s]) or (n>0 and kL(s,r,n) is not None)): print('redsound',s,r)
                if m&FRm[r]: print('FRsound',s,r,[names[a] for a in bits(m&FRm[r])])
        for A in Pd[s]:
            for m in byl[A]:
                rhs=R[m][1]
                if len(rhs)>=2 and rhs[0]>=NT and rhs[1]<NT:
                    t=goto(s,rhs[0]);a=rhs[1]
                    if action(t,a)[0]!='s':
                        for (r,k,_) in K[s]:
                            if not (k==len(R[r][1])-1 and FS(r,a)): print('FScomp',s,m,r,k)
        for (r,k,_) in K[s]:
            if k==len(R[r][1])-1 and R[r][1][k]>=NT:
                t=goto(s,R[r][1][k])
                for a in bits(FSm[r]):
                    if action(t,a)[0]=='s': print('FSsound',s,r,names[a])
    print('items',nitems,'preds',sum(len(d) for d in Pd.values()),'kern',sum(len(k) for k in K.values()),'rows',sum(len(d) for d in ROWS))
    # weights
    W={x:400 for x in range(NT)}; W.update({x:10**6 for x in range(NT,NSYM)})
    for it in range(3000):
        ch=False
        for i,(l,rhs) in enumerate(R):
            if i<1: continue
            v=sum(W[x] for x in rhs)-1
            if v<W[l]: W[l]=v;ch=True
        if not ch: break
    print('converged',not ch,min(W.values()),max(W[x] for x in range(NT,NSYM)))
