"""Read verbatim scanner tables (flex_lexer.cpp) and rules (flex_lexer.l); check NFA simulation == DFA tables (sanity for generators)."""
import re
from bisontab import T as BT, C as BC
SRC='/repo/src/parser/flex_lexer.cpp'
txt=open(SRC).read()
def table(name):
    m=re.search(r'static yyconst \S+ '+name+r'\[(\d+)\] =\s*\{(.*?)\} ;',txt,re.S)
    v=[int(x) for x in re.findall(r'-?\d+',m.group(2))]
    assert len(v)==int(m.group(1))
    return v,(txt[:m.start()].count('\n')+1,txt[:m.end()].count('\n')+1)
T={};L={}
for n in ['yy_accept','yy_ec','yy_meta','yy_base','yy_def','yy_nxt','yy_chk']: T[n],L[n]=table(n)
def step(s,c):
    while T['yy_chk'][T['yy_base'][s]+c]!=s:
        s=T['yy_def'][s]
        if s>=1368: c=T['yy_meta'][c]
    return T['yy_nxt'][T['yy_base'][s]+c]
# token numbers
H=open('/repo/src/parser/bison_parser.h').read()
tok={m.group(1):int(m.group(2)) for m in re.finditer(r'SQL_(\w+) = (\d+)',H)}
# ---- rules of the .l file
src=open('/repo/src/parser/flex_lexer.l').read().split('\n')
i0=[i for i,l in enumerate(src) if l.strip()=='%%'][0]
i1=[i for i,l in enumerate(src) if l.strip()=='%%'][1]
def ci(c): return sorted({ord(c.lower()),ord(c.upper())})
def parse_pat(p):
    """-> list of (set, star) ; x+ = x x*"""
    els=[];i=0
    while i<len(p):
        c=p[i]
        if c=='"':
            j=p.index('"',i+1)
            for ch in p[i+1:j]: els.append([set(ci(ch)),False])
            i=j+1; continue
        if c=='[':
            j=i+1;neg=False
            if p[j]=='^': neg=True;j+=1
            s=set();
            items=[]
            while p[j]!=']':
                if p[j]=='\\':
                    items.append({'n':'\n','t':'\t'}.get(p[j+1],p[j+1]));j+=2
                else: items.append(p[j]);j+=1
                if p[j]=='-' and p[j+1]!=']':
                    hi=p[j+1];j+=2
                    for o in range(ord(items.pop()),ord(hi)+1): s|=set(ci(chr(o)))
            for it in items: s|=set(ci(it))
            if neg: s=set(range(1,256))-s   # NUL never reaches the DFA (see DESIGN)
            els.append([s,False]); i=j+1
        elif c=='\\':
            els.append([{ord({'n':'\n','t':'\t'}.get(p[i+1],p[i+1]))},False]);i+=2
        elif c=='.': els.append([set(range(1,256))-{10},False]);i+=1
        elif c=='+':
            els.append([set(els[-1][0]),True]);i+=1
        elif c=='*':
            els[-1][1]=True;i+=1
        else: els.append([set(ci(c)),False]);i+=1
    return [(frozenset(s),st) for s,st in els]
rules=[] # (start cond, pattern text, line, els, kind)
for i in range(i0+1,i1):
    l=src[i]
    if not l or l[0].isspace() or l.startswith('}') : continue
    if l.startswith('  ') : continue
    m=re.match(r'(<(\w+)>)?((?:"[^"]*"|\[(?:\\.|[^\]\\])*\]|\\.|[^\s])+)(.*)',l)
    sc=m.group(2); pat=m.group(3)
    if pat=='<<EOF>>': continue
    rules.append((sc,pat,i+1,parse_pat(pat),m.group(4).strip()))
if __name__=='__main__':
    print(len(rules)); 
    for r in rules[:5]+rules[-24:]: print(r[0],repr(r[1]),r[2],r[4][:50])
    # NFA
    base=[];n=0
    for r in rules: base.append(n);n+=len(r[3])+1
    print('bits',n)
    Bm=[0]*256;S=0
    for r,b in zip(rules,base):
        for k,(s,st) in enumerate(r[3]):
            if st: S|=1<<(b+k)
            for x in s: Bm[x]|=1<<(b+k)
    # classes
    ec=T['yy_ec']
    cm={}
    for x in range(1,256):
        if ec[x] in cm: assert cm[ec[x]]==Bm[x],x
        cm[ec[x]]=Bm[x]
    print('classes',len(cm),max(cm))
    eps=lambda X: X|((X&S)<<1)
    def start(sc):
        X=0
        for r,b in zip(rules,base):
            if sc=='INITIAL': ok=r[0] is None
            elif sc=='COMMENT': ok=r[0] in (None,'COMMENT')
            else: ok=r[0]==sc
            if ok: X|=1<<b
        return eps(X)
    mask={1367:0}
    st=[]
    for sc,s in [('INITIAL',1),('singlequotedstring',3),('COMMENT',5)]:
        mask[s]=start(sc);st.append(s)
    bad=0
    while st:
        s=st.pop()
        for c,B in cm.items():
            t=step(s,c)
            X=mask[s]&B
            Y=eps(((X&~S)<<1)|(X&S))
            if t in mask:
                if mask[t]!=Y: bad+=1; print('mismatch',s,c,t)
            else: mask[t]=Y;st.append(t)
    print('states',len(mask),'bad',bad)
    for s,X in mask.items():
        acc=[i+1 for i,(r,b) in enumerate(zip(rules,base)) if X>>(b+len(r[3]))&1]
        a=acc[0] if acc else 0
        if T['yy_accept'][s]!=a and not(s==1367): print('acc',s,a,T['yy_accept'][s])
    print([s for s in range(1,1368) if s not in mask], T['yy_accept'][1367],T['yy_accept'][7])
    print(set(step(s,0) for s in mask), step(7,0))
