import re
s=open('/verif/lean/Verif/LR/Grammar.lean').read()
ns=dict()
for m in re.finditer(r'def (\w+) : Nat := (\d+)',s): pass
# parse T./N. numbering
cur=None; num={}
for l in s.splitlines():
    m=re.match(r'namespace (\w)$',l)
    if m: cur=m.group(1)
    m=re.match(r'(?:abbrev|def) (\S+) : Nat := (\d+)',l.strip())
    if m: num[(cur,m.group(1))]=int(m.group(2)); num[m.group(1)]=int(m.group(2))
rules=[]
i=s.index('def rules')
for l in s[i:].splitlines():
    m=re.match(r'\s*\(([TN])\.(\w+), \[(.*?)\]\)',l)
    if m:
        rules.append((m.group(1)+'.'+m.group(2),[x.strip() for x in m.group(3).split(',') if x.strip()]))
    elif len(rules)>300: break
print(len(rules))
rules=rules[2:]
syms=set()
for a,b in rules: syms.add(a); syms|=set(b)
INF=10**9
ml={x:(1 if x.startswith('T.') else INF) for x in syms}
ch=True
while ch:
    ch=False
    for a,b in rules:
        v=sum(ml[x] for x in b)
        if v<ml[a]: ml[a]=v; ch=True
for al in (1,2,3):
    B={x:(1-al if x.startswith('T.') else 1) for x in syms}
    # B(A) >= 1 - al*0 ; need>=1
    B={x:(1-al if x.startswith('T.') else 1-al*ml[x]) for x in syms}
    ok=False
    for it in range(1000):
        ch=False
        for a,b in rules:
            tot=sum(ml[x] for x in b)
            for i,x in enumerate(b):
                v=i+B[x]-al*(tot-ml[x])
                if v>B[a]: B[a]=v; ch=True
        if not ch: ok=True;break
    print(al,ok,B['N.input'] if ok else None, (198-B['N.input'])//al if ok else None, max(B.values()),min(B.values()))
al=2
B={x:(1-al if x.startswith('T.') else 1-al*ml[x]) for x in syms}
ch=True
while ch:
    ch=False
    for a,b in rules:
        tot=sum(ml[x] for x in b)
        for i,x in enumerate(b):
            v=i+B[x]-al*(tot-ml[x])
            if v>B[a]: B[a]=v; ch=True
print(max(ml.values()))
def no(x):
    k=x.split('.')
    return num[x]
b=0;m=0
for x in syms:
    b|=(B[x]+10)<<(5*no(x)); m|=ml[x]<<(5*no(x))
for t in range(199):
    if (b>>(5*t))%32==0: b|=9<<(5*t); m|=1<<(5*t); print('extra',t)
open('/tmp/needtab.txt','w').write(f"def bT : Nat := 0x{b:x}\ndef mT : Nat := 0x{m:x}\n")
