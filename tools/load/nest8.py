exec(open('/verif/tools/load/nest7.py').read().split("# labels:")[0])
R={idx[x] for x in ("','",'AND','OR','WHEN','THEN','ELSE','SELECT','FROM','WHERE','HAVING','BY','SET')}
WOP=int(sys.argv[1]); PW={idx['NOT']:int(sys.argv[2]),idx["'-'"]:int(sys.argv[3])}
topS={200,201,333,196}
mnU={}
nonA=set()
ch=True
while ch:
    ch=False
    for l,r in rules[2:]:
        if l in topS: continue
        lv=levels(r)
        if l not in nonA and any(d==0 and (x in R or x in nonA) for x,d in zip(r,lv)): nonA.add(l); ch=True
        if all(x<199 or x in mnU for x,d in zip(r,lv) if d==0):
            v=sum((UW.get(x,0) if x<199 else mnU[x]) for x,d in zip(r,lv) if d==0)
            if l not in mnU or v<mnU[l]: mnU[l]=v; ch=True
g={}
for X in range(335):
    if X in topS: g[X]=0
    elif X in OP: g[X]=WOP
    elif X in CL: g[X]=-WOP
    elif X in PW: g[X]=PW[X]
    elif X<199: g[X]=UW.get(X,0)
    else: g[X]=mnU.get(X,0)
p=solve(g,topS)
if not p: print('none'); sys.exit()
print('phi',max(p.values()),min(p.values()),'thr',199-max(p.values()), {name(x):v for x,v in g.items() if v and x>=199}, 'phi69',p[69])
def lfp(f):
    lab={s:True for s in range(656)}; ch=True
    while ch:
        ch=False
        for s,t,X in edges:
            if lab[t] and not f(lab,s,X): lab[t]=False; ch=True
    return lab
lab2=lfp(lambda lab,s,X: X in OP or X in topS or (X not in PF and X not in CL and lab[s]))
labZ0=lfp(lambda lab,s,X: X in OP or (g[X]==0 and X not in topS and lab[s] and s!=0))
labZ=labZ0
print(all(lab2[s] for s,t,X in edges if X in R or X in nonA), all(labZ[s] for s,t,X in edges if X in CL))
off=-min(p.values())
phiN=0; gN=0; l2=0; lz=0; aN=0
for s in range(656):
    phiN|=(p[s]+off)<<(7*s)
    if lab2[s]: l2|=1<<s
    if labZ[s] and s!=0: lz|=1<<s
for X in range(335):
    gN|=(g[X]+64)<<(7*X)
    if X>=199 and X not in topS and X not in nonA: aN|=1<<X
open('/tmp/nest.data','w').write('\n'.join([hex(phiN),hex(gN),hex(l2),hex(lz),hex(aN)]))
print(off)
