from flextab import *
OUT='/verif/lean/Verif/Lex/'
base=[];n=0
for r in rules: base.append(n);n+=len(r[3])+1
NB=n
Bm=[0]*256;S=0
for r,b in zip(rules,base):
    for k,(s,st) in enumerate(r[3]):
        if st: S|=1<<(b+k)
        for x in s: Bm[x]|=1<<(b+k)
ec=T['yy_ec']
B=[0]*77;CM=[0]*77
for x in range(1,256): B[ec[x]]=Bm[x];CM[ec[x]]|=1<<x
eps=lambda X: X|((X&S)<<1)
def start(sc):
    X=0
    for r,b in zip(rules,base):
        ok={'INITIAL':r[0] is None,'COMMENT':r[0] in (None,'COMMENT'),'singlequotedstring':r[0]=='singlequotedstring'}[sc]
        if ok: X|=1<<b
    return eps(X)
mask={1367:0};st=[]
for sc,s in [('INITIAL',1),('singlequotedstring',3),('COMMENT',5)]: mask[s]=start(sc);st.append(s)
while st:
    s=st.pop()
    for c in range(1,77):
        t=step(s,c);X=mask[s]&B[c];Y=eps(((X&~S)<<1)|(X&S))
        if t in mask: assert mask[t]==Y
        else: mask[t]=Y;st.append(t)
def mtrie(l,b):
    if b==0: return f'(.leaf {hex(l[0]) if l else 0})'
    h=1<<(b-1)
    if len(l)<=h: return f'(.node {h} {mtrie(l,b-1)} (.leaf 0))'
    return f'(.node {h} {mtrie(l[:h],b-1)} {mtrie(l[h:],b-1)})'
acc=[base[i]+len(r[3]) for i,r in enumerate(rules)]
o='''import Verif.Util
/-! GENERATED by tools/genlexcert.py. Certificate for the scanner automaton: for every DFA state the set of
positions of the rules of `Verif.Lex.Spec` it stands for. Untrusted data; checked in `Verif.Lex.Cert*`. -/
set_option maxRecDepth 200000
set_option linter.all false
namespace Verif.Lex

/-- A binary tree of naturals. -/
inductive MTrie where
  | leaf (p : Nat)
  | node (bit : Nat) (l r : MTrie)

noncomputable def MTrie.get (t : MTrie) (i : Nat) : Nat :=
  MTrie.rec (motive := fun _ => Nat) (fun p => p)
    (fun n _ _ gl gr => Bool.rec gr gl (Nat.beq (Nat.land i n) 0)) t

'''
o+=f'/-- star positions -/\ndef starMask : Nat := {hex(S)}\n'
A=sum(1<<a for a in acc)
o+=f'/-- accepting positions -/\ndef accMask : Nat := {hex(A)}\n'
o+=f'def startMask1 : Nat := {hex(mask[1])}\ndef startMask3 : Nat := {hex(mask[3])}\ndef startMask5 : Nat := {hex(mask[5])}\n'
o+=f'def stateMasks : MTrie := {mtrie([mask.get(i,0) for i in range(1368)],11)}\n'
o+=f'def classPos : MTrie := {mtrie(B,7)}\n'
o+=f'def classBytes : MTrie := {mtrie(CM,7)}\n'
o+=f'def accPosT : MTrie := {mtrie([0]+acc,8)}\n'
els=[]
for r in rules:
    for (ss,stt) in r[3]: els.append(sum(1<<x for x in ss))
    els.append(0)
o+='/-- class of each position (0 for accepting positions) -/\ndef elemCls : List Nat :=\n  ['+',\n   '.join(map(hex,els))+']\n'
o+='end Verif.Lex\n'
open(OUT+'Masks.lean','w').write(o)
for k,(a,cnt) in enumerate([(0,342),(342,342),(684,342),(1026,341)]):
    o='''import Verif.Lex.CertDefs
/-! GENERATED by tools/genlexcert.py. Kernel evaluation of the scanner certificate, part %d. -/
set_option maxRecDepth 200000
namespace Verif.Lex
'''%k
    names=[]
    step_=57
    for j,x in enumerate(range(a,a+cnt,step_)):
        c=min(step_,a+cnt-x)
        o+=f'theorem rows_{x} : allFrom {x} {c} rowOk = true := by decide +kernel\n'
    o+=f'theorem rowsPart{k} : ∀ s, {a} ≤ s → s < {a+cnt} → rowOk s = true := by\n  intro s h1 h2\n'
    xs=list(range(a,a+cnt,step_))
    for x in xs:
        c=min(step_,a+cnt-x)
        o+=f'  by_cases g{x} : s < {x+c}\n  · exact allFrom_spec rows_{x} s (by omega) g{x}\n'
    o+='  omega\nend Verif.Lex\n'
    open(OUT+f'Cert{k}.lean','w').write(o)
print(NB)
