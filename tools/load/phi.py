import re,sys
sys.setrecursionlimit(10000)
src=open('/repo/src/parser/bison_parser.cpp').read()
def arr(n):
    m=re.search(r'static const \w+ %s\[\] =\s*\{(.*?)\};'%n,src,re.S)
    return [int(x) for x in re.findall(r'-?\d+',re.sub(r'/\*.*?\*/','',m.group(1),flags=re.S))]
pgoto=arr('yypgoto'); defgoto=arr('yydefgoto'); table=arr('yytable'); check=arr('yycheck')
stos=arr('yystos')
def goto(s,A):
    i=A-199; y=pgoto[i]+s
    if 0<=y<len(table) and check[y]==s: return table[y]
    return defgoto[i]
def toks(t):
    return re.findall(r'[()]|[^\s()]+',t)
def parse(ts):
    pos=0
    def p():
        nonlocal pos
        if ts[pos]=='(':
            pos+=1; r=[]
            while ts[pos]!=')': r.append(p())
            pos+=1
            return r
        pos+=1; return ts[pos-1]
    out=[]
    while pos<len(ts): out.append(p())
    return out
st={}
for l in open('LR/CertData.lean'):
    m=re.match(r'def st(\d+) : St := (.*)$',l)
    if m:
        e=parse(toks(m.group(2)))
        st[int(m.group(1))]=e
def lst(x):
    r=[]
    while x!='.nil':
        r.append(x[1:-1]); x=x[-1]
    return r
print(len(st))
edges=[]
for s,e in st.items():
    if s==69: continue
    kern,pred,rows=e[1],e[2],e[3]
    for (X,m) in lst(pred): edges.append((s,goto(s,int(X)),int(X)))
    for (enc,m) in lst(rows):
        enc=int(enc)
        if enc%2==0 and enc>0: edges.append((s,enc//2,None,enc))
print(len(edges))
# fix shift enc: check by stos
