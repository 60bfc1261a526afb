"""Generates lean/Verif/Lex/GapData.lean and Gap0..3: how far the scanner reads beyond its last accepting state.
Codes: 0 accepting or start; 1 only blanks since the last accepting state; 1+k: blanks, then at most k bytes; 100: inside an unterminated quoted identifier."""
import sys
sys.path.insert(0,'/verif/tools')
from flextab import *
acc,ec,meta,base,df,nxt,chk=[T[n] for n in ['yy_accept','yy_ec','yy_meta','yy_base','yy_def','yy_nxt','yy_chk']]
def step(s,c):
    while chk[base[s]+c]!=s:
        s=df[s]
        if s>=1368: c=meta[c]
    return nxt[base[s]+c]
live=[s for s in range(1367) if s in(1,3,5) or s>7]
blankc={ec[9],ec[10],ec[32]}
assert {b for b in range(1,256) if ec[b] in blankc}=={9,10,32}
gap={}
# order: iterate to a fixpoint
code={s:0 for s in live if acc[s]!=0 or s in(1,3,5)}
for s in (1,3,5):
    for c in range(1,77):
        t=step(s,c); assert t==1367 or code.get(t)==0,(s,c,t)
ch=True
while ch:
    ch=False
    for s in live:
        g=code.get(s)
        if g is None: continue
        for c in range(1,77):
            t=step(s,c)
            if t==1367 or acc[t]!=0: continue
            if g==100 or (g==0 and acc[s]==188): h=100
            elif c in blankc and g<=1: h=1
            else: h=max(g,1)+1
            o=code.get(t)
            if o is None or (h>o): 
                if o in (100,) or (h==100 and o not in (None,100)): print('conflict',s,t,o,h)
                code[t]=h; ch=True
                assert h==100 or h<60,(s,t)
print(len(live),len(code),sorted(set(code.values())), sum(1 for v in code.values() if v==1),[ (s,acc[s]) for s in live if code.get(s)==100])
def ok(s,c):
    t=step(s,c)
    if t==1367: return True
    g,h=code[s],code[t]
    if h==0: return acc[t]!=0
    if h==1: return c in blankc and g<=1 and s>7
    if h==100: return g==100 or (g==0 and acc[s]==188)
    return g<h and s>7
print(all(ok(s,c) for s in code for c in range(1,77)), blankc)
def trie(l,b):
    if b==8:
        v=0
        for i,x in enumerate(l): assert 0<=x<65536; v|=x<<(16*i)
        return f'(.leaf {hex(v)})'
    h=1<<(b-1)
    return f'(.node {h} {trie(l[:h],b-1)} {trie(l[h:],b-1)})' if len(l)>h else f'(.node {h} {trie(l,b-1)} (.leaf 0))'
rows=''
for i in range(0,1367,57):
    n=min(57,1367-i)
    rows+=f'theorem gapRows_{i} : allFrom {i} {n} gapRow = true := by decide +kernel\n'
rows+='theorem gapRow_all (s : Nat) (h : s < 1367) : gapRow s = true := by\n'
for i in range(0,1367,57):
    n=min(57,1367-i)
    rows+=f'  by_cases g{i} : s < {i+n}\n  · exact allFrom_spec gapRows_{i} s (by omega) g{i}\n'
rows+='  omega\n'
o=f'''import Verif.Lex.CertDefs
/-! GENERATED by tools/gengap.py. How far the scanner reads beyond its last accepting state (proof-internal certificate). -/
set_option maxRecDepth 200000
set_option linter.all false
namespace Verif.Lex

/-- 0: accepting, or a start state; 1: only blanks since the last accepting state; k + 1: blanks, then at most k bytes; 100: inside a quoted identifier. -/
def gapT : Trie := {trie([code.get(s,0) for s in range(1368)],11)}

/-- One move. Blanks are the classes 2 and 3. -/
noncomputable def gapCell (s c : Nat) : Bool :=
  (fun t => (fun g h =>
    Bool.rec
      (Bool.rec
        (Bool.rec
          (Bool.rec
            (Bool.rec false (Bool.rec false (Nat.blt h 20) (Nat.blt g h)) (Nat.blt 7 s))
            (Bool.rec (Bool.rec false (Nat.beq (yy_acceptT.get s) 188) (Nat.beq g 0)) true (Nat.beq g 100))
            (Nat.beq h 100))
          (Bool.rec false (Bool.rec false (Bool.rec false (Nat.ble c 3) (Nat.ble 2 c)) (Nat.ble g 1)) (Nat.blt 7 s))
          (Nat.beq h 1))
        (Nat.blt 0 (yy_acceptT.get t))
        (Nat.beq h 0))
      true (Nat.beq t 1367)) (gapT.get s) (gapT.get t)) (fastNext 8 s c)

noncomputable def gapRow (s : Nat) : Bool := Bool.rec true (Bool.rec false (allFrom 1 76 (gapCell s)) (Bool.rec (Nat.beq (gapT.get s) 0) true (Nat.beq (yy_acceptT.get s) 0))) (okState s)

{rows}

/-- A class 2 or 3 is that of a blank. -/
noncomputable def gapByte (b : Nat) : Bool := Bool.rec true (Bool.rec (Nat.beq b 32) (Nat.ble b 10) (Bool.rec false (Nat.ble b 10) (Nat.ble 9 b))) (Bool.rec false (Nat.ble (yy_ecT.get b) 3) (Nat.ble 2 (yy_ecT.get b)))
theorem gapBytes : allFrom 1 255 gapByte = true := by decide +kernel

end Verif.Lex
'''
open('/verif/lean/Verif/Lex/Gap.lean','w').write(o)
