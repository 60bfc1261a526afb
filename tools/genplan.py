"""Generates lean/Verif/LR/PlanData.lean: how every state of the parser automaton can be completed (checked by the Lean kernel).

For every state an item of its kernel that is completed next, with operator-free phrases (`tame`) for what is missing; for every symbol a rank that decreases when an item
with one symbol before the dot is completed, the set of the tokens that may come next, the rule of its smallest tame phrase, the size and the first token of that."""
from lrcert import *
opL={x for x in range(NT,NSYM) if names[x] in('unary_expr','binary_expr','logic_expr','comp_expr')}
tame=[i for i in range(2,len(R)) if R[i][0] not in opL and not(len(R[i][1])>=2 and R[i][1][0]>=NT and R[i][1][1]<NT)]
frx=[0]*NSYM
for r in range(1,len(R)): frx[R[r][0]]|=FRm[r]
ch=True
while ch:
    ch=False
    for r in range(2,len(R)):
        l,rr=R[r]
        if len(rr)==1 and rr[0]>=NT and frx[l]|frx[rr[0]]!=frx[l]: frx[l]|=frx[rr[0]];ch=True
cost={a:1 for a in range(NT)}; best={}
ch=True
while ch:
    ch=False
    for i in tame:
        l,r=R[i]
        if all(x in cost for x in r):
            c=1+sum(cost[x] for x in r)
            if l not in cost or c<cost[l]: cost[l]=c;best[l]=i;ch=True
ymemo={}
def yld(x):
    if x<NT: return [x]
    if x not in ymemo: ymemo[x]=[t for y in R[best[x]][1] for t in yld(y)]
    return ymemo[x]
acc={}
for s in range(NS):
    for (r,k,L) in K[s]:
        if k>0: acc[s]=R[r][1][k-1]
rk={200:0}; choice={}
def opts(s):
    X=acc[s]
    for (r,k,L) in K[s]:
        if r==1: yield (0,r,k); continue
        if L==0: continue
        rhs=R[r][1]
        if k==1 and len(rhs)>=2 and rhs[0]>=NT and rhs[1]<NT and action(s,rhs[1])[0]!='s': continue
        if any(x not in cost for x in rhs[k:]): continue
        y=[t for x in rhs[k:] for t in yld(x)]
        if X>=NT and y and frx[X]>>y[0]&1: continue
        if k>=2: yield (len(y),r,k)
        elif R[r][0] in rk: yield (len(y)+0.5,r,k)
bysym={}
for s in acc:
    if s!=69: bysym.setdefault(acc[s],[]).append(s)
done=set(); n=0; ch=True
while ch:
    ch=False;new=[]
    for X,ss in bysym.items():
        if X in done: continue
        o=[(s,min(opts(s),default=None)) for s in ss]
        if all(c for s,c in o):
            for s,c in o: choice[s]=c[1:]
            new.append(X)
    n+=1
    for X in new:
        done.add(X); ch=True
        if X!=200: rk[X]=n
assert len(done)==len(bysym)
SF=[0]*NSYM
ch=True
while ch:
    ch=False
    for s,(r,k) in choice.items():
        X=acc[s]
        if X<NT: continue
        if r==1: m=1
        else:
            y=[t for x in R[r][1][k:] for t in yld(x)]
            m=(1<<y[0]) if y else SF[R[r][0]]
        if SF[X]|m!=SF[X]: SF[X]|=m; ch=True
assert not any(SF[R[r][0]]&FRm[r] for r in range(2,len(R)))
def bt(l,n):
    l=l+[0]*(n-len(l))
    if n==1: return '(.leaf 0x%x)'%l[0]
    h=n//2
    return '(.node %d %s %s)'%(h,bt(l[:h],h),bt(l[h:],h))
ft=[]
for X in range(NSYM):
    y=yld(X) if X in cost else []
    ft.append(y[0]+1 if y else 0)
with open('/verif/lean/Verif/LR/PlanData.lean','w') as f:
    f.write('import Verif.LR.TrieInt\n/-! Generated by tools/genplan.py. How every state of the automaton can be completed. Proof-internal data, checked by the kernel. -/\nset_option maxRecDepth 100000\nset_option linter.all false\nnamespace Verif.LR\n')
    f.write('def plRT : BT Nat := %s\n'%bt([choice.get(s,(0,0))[0] for s in range(NS)],1024))
    f.write('def plKT : BT Nat := %s\n'%bt([choice.get(s,(0,0))[1] for s in range(NS)],1024))
    f.write('def coT : BT Nat := %s\n'%bt([cost.get(X,0) for X in range(NSYM)],512))
    f.write('def beT : BT Nat := %s\n'%bt([best.get(X,0) for X in range(NSYM)],512))
    f.write('def ftT : BT Nat := %s\n'%bt(ft,512))
    f.write('def rkT : BT Nat := %s\n'%bt([rk.get(X,0) for X in range(NSYM)],512))
    f.write('def sfT : BT Nat := %s\n'%bt(SF,512))
    f.write('end Verif.LR\n')
