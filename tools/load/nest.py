exec(open('/verif/tools/load/phi.py').read().split("edges=[]")[0])
edges=[]
for s,e in st.items():
    if s==69: continue
    kern,pred,rows=e[1],e[2],e[3]
    for (X,m) in lst(pred): edges.append((s,goto(s,int(X)),int(X)))
    for (enc,m) in lst(rows):
        enc=int(enc)
        if enc%2==0 and enc>0:
            t=(enc-2)//2
            edges.append((s,t,stos[t]))
m=re.search(r'yytname\[\] =\s*\{(.*?)\};',src,re.S)
names=re.findall(r'"(?:[^"\\]|\\.)*"',m.group(1))
names=[n[1:-1] for n in names]
name=lambda X:names[X]
idx={n:i for i,n in enumerate(names)}
