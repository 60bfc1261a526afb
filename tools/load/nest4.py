exec(open('/verif/tools/load/nest.py').read())
g=open('LR/Grammar.lean').read()
sym={}
for m in re.finditer(r'abbrev ([TN]\.\w+) : Nat := (\d+)',g): sym[m.group(1)]=int(m.group(2))
rules=[]
for m in re.finditer(r'^  \(([TN]\.\w+), \[([^\]]*)\]\),?  -- (\d+)',g,re.M):
    rules.append((sym[m.group(1)],[sym[x.strip()] for x in m.group(2).split(',') if x.strip()]))
print(len(rules))
def mins(G):
    # min gain per nonterminal
    mn={}
    for it in range(400):
        ch=False
        for l,r in rules[1:]:
            if l in (199,200,201,333): continue
            if all(x<199 or x in mn for x in r):
                v=sum(G.get(x,0) if x<199 else mn[x] for x in r)
                if l not in mn or v<mn[l]: mn[l]=v;ch=True
        if not ch: return mn
    return None
def gains(d): return {idx[k]:v for k,v in d.items()}
def solve(W,top=()):
    phi={0:0}
    for it in range(900):
        ch=False
        for s,t,X in edges:
            if s in phi:
                v=phi[s]+1-(0 if X in top else W[X])
                if t not in phi or phi[t]<v: phi[t]=v; ch=True
        if not ch: return phi
    return None
top={200,201,333,196,199}
def attempt(G,K):
    mn=mins(G)
    if mn is None: return 'mins'
    W={X:K*(G.get(X,0) if X<199 else mn.get(X,0)) for X in range(335)}
    p=solve(W,top)
    return p and (max(p.values()),min(p.values()),{name(x):v for x,v in mn.items() if v})
if __name__=='__main__':
    G=gains({"'('":1,"'['":1,'CASE':1,'NOT':1,"'-'":1,'JOIN':1,'UNION':1,'INTERSECT':1,'EXCEPT':1,"')'":-1,"']'":-1,'END':-1})
    for K in (31,32,35,40): print(K,attempt(G,K))
    G.update(gains({'ON':-1,'USING':-1,'NATURAL':-1}))
    for K in (31,32,35,40): print(K,attempt(G,K))
