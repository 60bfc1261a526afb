exec(open('/verif/tools/load/nest4.py').read().split("if __name__")[0])
OP={idx[x] for x in ("'('","'['",'CASE')}; CL={idx[x] for x in ("')'","']'",'END')}
PF={idx['NOT'],idx["'-'"]}
UW={idx['JOIN']:3,idx['ON']:-3,idx['USING']:-3,idx['NATURAL']:-3,idx['UNION']:2,idx['INTERSECT']:2,idx['EXCEPT']:2}
TOP={199,200,201,333}
# well-nested rhs?
def levels(r):
    d=0; out=[]
    for x in r:
        if x in CL: d-=1
        assert d>=0
        out.append(d)
        if x in OP: d+=1
    assert d==0
    return out
for l,r in rules[1:]: levels(r)
# labels: lab(s)= no PF since last opener: greatest fixpoint
lab={s:True for s in range(656)}
# for CL symbols: after pop, label = label before the opener; approximate: closers: lab(t)=? handle via 'outer' -> set False first
def labels(closerval):
    # pend(s): exists stack reaching s with PF at current level
    lab={s:True for s in range(656)}
    ch=True
    while ch:
        ch=False
        for s,t,X in edges:
            if X in OP: v=True
            elif X in PF: v=False
            elif X in CL: v=closerval
            else: v=lab[s]
            if not v and lab[t]: lab[t]=False; ch=True
    return lab
for cv in (False,True):
    lab=labels(cv); print(cv,sum(lab.values()))
    # max R
    R={x for x in range(3,199)}-OP-CL-PF-set(UW)-{idx["';'"]}
    while True:
        # non-A nonterminals
        nonA=set()
        ch=True
        while ch:
            ch=False
            for l,r in rules[1:]:
                if l in nonA: continue
                lv=levels(r)
                if any(d==0 and (x in R or x in nonA) for x,d in zip(r,lv)): nonA.add(l); ch=True
        bad=set()
        for s,t,X in edges:
            if not lab[s] and X in R: bad.add(X)
        viol={(name(X)) for s,t,X in edges if not lab[s] and X in nonA}
        if bad: R-=bad; continue
        break
    print('viol',viol); print('R',len(R)); print('notR',sorted(name(x) for x in set(range(3,199))-R))
