"""Extract grammar (rules in order, precedence decls, types, line numbers) from bison_parser.y; cross-check against tables."""
import re
from bisontab import T,C
SRC='/repo/src/parser/bison_parser.y'
src=open(SRC).read()
i1=src.index('\n%%\n')+4
i2=src.rindex('%%')
decl=src[:i1]; body=src[i1:i2]
line0=src[:i1].count('\n')+1
# tokenise body
toks=[];i=0;n=len(body);line=line0
while i<n:
    c=body[i]
    if c=='\n': line+=1;i+=1
    elif c.isspace(): i+=1
    elif body.startswith('//',i):
        while body[i]!='\n': i+=1
    elif body.startswith('/*',i):
        j=body.index('*/',i)+2; line+=body[i:j].count('\n'); i=j
    elif c=='{':
        d=0;j=i;l=line
        while True:
            ch=body[j]
            if ch=='{': d+=1
            elif ch=='}':
                d-=1
                if d==0: break
            elif ch=='"':
                j+=1
                while body[j]!='"':
                    if body[j]=='\\': j+=1
                    j+=1
            elif ch=="'" and body[j+2]=="'": j+=2
            elif body.startswith('//',j):
                while body[j]!='\n': j+=1
                continue
            j+=1
        act=body[i:j+1]; toks.append(('act',act,l)); line+=act.count('\n'); i=j+1
    elif c=="'":
        toks.append(('chr',body[i:i+3],line)); i+=3
    elif c in ':|;': toks.append((c,c,line)); i+=1
    else:
        m=re.match(r'\w+',body[i:]); toks.append(('id',m.group(0),line)); i+=len(m.group(0))
rules=[(0,'$dummy',[],None,0),(1,'$accept',['input','$end'],None,0)]
k=0
while k<len(toks):
    if toks[k][0]==';': k+=1; continue
    lhs=toks[k][1]; assert toks[k][0]=='id' and toks[k+1][0]==':',toks[k:k+3]
    k+=2; rhs=[];act=None;ln=toks[k-2][2]; first=True
    def flush(l2):
        rules.append((len(rules),lhs,rhs,act,ln))
    while True:
        t=toks[k] if k<len(toks) else (';',';',0)
        if t[0]==';' and k+1<len(toks) and toks[k+1][0]=='|': k+=1; continue  # bison accepts `; |` as a continuation
        if t[0]==';': flush(0);k+=1;break
        if t[0]=='id' and k+1<len(toks) and toks[k+1][0]==':': flush(0);break
        if t[0]=='|': flush(0); rhs=[];act=None;ln=t[2];k+=1;continue
        if t[0]=='act': act=t[1];k+=1;continue
        rhs.append(t[1]);k+=1
NT=C['YYNTOKENS']
names=T['yytname']
# extract symbol ids: user token numbers from %token order
def norm(s): return s
sid={}
for ix,nm in enumerate(names): sid[nm]=ix
assert len(rules)==C['YYNRULES']+1,(len(rules),C['YYNRULES'])
R=[]
for (ix,lhs,rhs,act,ln) in rules:
    if ix==0: r=(0,[])
    elif ix==1: r=(sid['$accept'],[sid['input'],0])
    else:
        r=(sid[lhs],[sid[x] for x in rhs])
    R.append(r)
    assert T['yyr1'][ix]==r[0] or ix==0,(ix,lhs,names[T['yyr1'][ix]])
    assert T['yyr2'][ix]==len(r[1]),(ix,lhs,rhs,T['yyr2'][ix])
# precedence
prec={}; level=0
for m in re.finditer(r'^%(left|right|nonassoc)\s+(.*)$',decl,re.M):
    level+=1
    items=re.sub(r'/\*.*?\*/','',m.group(2)).split()
    for it in items: prec[sid[it]]=(level,m.group(1))
def ruleprec(r):
    p=None
    for x in R[r][1]:
        if x<NT: p=prec.get(x)
    # bison: precedence of the last terminal
    last=[x for x in R[r][1] if x<NT]
    return prec.get(last[-1]) if last else None
if __name__=='__main__':
    print(len(R),prec)
    for r in rules[:12]: print(r[0],r[1],r[2],r[4])
    bad=[(r[0],r[4],T['yyrline'][r[0]]) for r in rules if r[4]!=T['yyrline'][r[0]]]
    print(len(bad),bad[:20])
