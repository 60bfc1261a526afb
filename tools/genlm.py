"""Generate lean/Verif/LR/LmData.lean: for every nonterminal the symbols its sentential forms can begin with (checked by the Lean kernel)."""
from lrcert import *
ROUNDS=9
masks=[0]*256
for B in range(199,335):
    m=1<<B
    for _ in range(ROUNDS):
        for r in range(len(R)-1,1,-1):
            l,rh=R[r]
            if rh and m>>l&1: m|=1<<rh[0]
    masks[B-199]=m
def bt(lo,n):
    if n==1: return '(.leaf 0x%x)'%masks[lo]
    h=n//2
    return '(.node %d %s %s)'%(h,bt(lo,h),bt(lo+h,h))
with open('/verif/lean/Verif/LR/LmData.lean','w') as f:
    f.write('import Verif.LR.TrieInt\n/-! Generated by tools/genlm.py. For nonterminal `199 + i`: the symbols its sentential forms can begin with. Proof-internal. -/\nnamespace Verif.LR\n')
    f.write('def lmT : BT Nat := %s\n'%bt(0,256))
    f.write('end Verif.LR\n')
