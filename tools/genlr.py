"""Generates lean/Verif/LR/{Tables,Grammar,Tries,CertData}.lean from bison_parser.{cpp,y}."""
from lrcert import *
from bisontab import L as LN
from grammar import rules
import re,os
OUT='/verif/lean/Verif/LR/'
os.makedirs(OUT,exist_ok=True)
def lst(l,w=20): return '['+',\n   '.join(', '.join(map(str,l[i:i+w])) for i in range(0,len(l),w))+']'
def trie(l,b):
    if b==8:
        v=0
        for i,x in enumerate(l): assert 0<=x<65536; v|=x<<(16*i)
        return f'(.leaf {hex(v)})'
    h=1<<(b-1)
    return f'(.node {h} {trie(l[:h],b-1)} {trie(l[h:],b-1)})' if len(l)>h else f'(.node {h} {trie(l,b-1)} (.leaf 0))'
def depth(l):
    b=8
    while (1<<b)<len(l): b+=1
    return b
tabs=['yytranslate','yypact','yydefact','yypgoto','yydefgoto','yytable','yycheck','yystos','yyr1','yyr2']
o='''import Verif.Util
/-!
GENERATED by tools/genlr.py. The parser tables of src/parser/bison_parser.cpp, entry for entry.
-/
set_option maxRecDepth 200000
set_option linter.all false
namespace Verif.LR

/-- bison_parser.cpp: `YYFINAL`, `YYLAST`, `YYNTOKENS`, `YYUNDEFTOK`, `YYMAXUTOK`, `YYPACT_NINF`, `YYTABLE_NINF`. -/
'''
for n in ['YYFINAL','YYLAST','YYNTOKENS','YYUNDEFTOK','YYMAXUTOK','YYPACT_NINF','YYTABLE_NINF']:
    o+=f'/-- bison_parser.cpp, `#define {n}`. -/\nabbrev {n} : Int := {C[n]}\n'
o=o.replace("/-- bison_parser.cpp: `YYFINAL`, `YYLAST`, `YYNTOKENS`, `YYUNDEFTOK`, `YYMAXUTOK`, `YYPACT_NINF`, `YYTABLE_NINF`. -/\n",'')
o+='\n'
for n in tabs:
    o+=f'/-- src/parser/bison_parser.cpp:{LN[n][0]}-{LN[n][1]}, `{n}` ({len(T[n])} entries). -/\ndef {n} : List Int :=\n  {lst(T[n])}\n\n'
o+='end Verif.LR\n'
open(OUT+'Tables.lean','w').write(o)
# ---------- symbol names
special={'$end':'eof','error':'error','$undefined':'undef',"'='":'EQ',"'<'":'LT',"'>'":'GT',"'+'":'PLUS',"'-'":'HYPHEN',"'*'":'STAR',"'/'":'SLASH',"'%'":'PERCENT',"'^'":'CARET',"'['":'LBRACKET',"']'":'RBRACKET',"'('":'LPAREN',"')'":'RPAREN',"'.'":'DOT',"';'":'SEMI',"','":'COMMA',"'?'":'QMARK','$accept':'accept'}
def sn(x):
    nm=special.get(names[x],names[x])
    return ('T.' if x<NT else 'N.')+nm
if __name__=='__main__':
    o='''import Verif.LR.Tables
import Verif.Lex.Lexer
/-!
GENERATED by tools/genlr.py from src/parser/bison_parser.y.

The grammar as data: symbols, rules, and precedence declarations.  This is the specification the parser
tables are compared against; nothing here looks at the tables.
-/
set_option maxRecDepth 200000
set_option linter.all false
namespace Verif.LR

/-! ## Symbols (numbered as in `yytname`, bison_parser.cpp:%d-%d): 0-198 terminals, 199-334 nonterminals -/

'''%LN['yytname']
    for x in range(NSYM):
        o+=f'/-- `{names[x]}` -/\nabbrev {sn(x)} : Nat := {x}\n'
    o+='''
/-- A grammar rule: left-hand side and right-hand side. -/
abbrev Rule := Nat × List Nat

/-- The rules, numbered as bison numbers them (index 0 is unused; rule 1 is bison's `$accept: input $end`).
The comment gives the line of bison_parser.y. -/
def rules : List Rule := [
'''
    for (ix,lhs,rhs,act,ln) in rules:
        l,r=R[ix]
        o+=f'  ({sn(l)}, [{", ".join(sn(x) for x in r)}])' + (',' if ix<len(R)-1 else '') + (f'  -- {ix}: .y line {ln}\n' if ix>1 else f'  -- {ix}\n')
    o+=']\n\n'
    o+='''/-- Associativity keywords of bison. -/
inductive Assoc where | left | right | nonassoc
deriving DecidableEq, Repr

/-- bison_parser.y:317-336: the precedence declarations, lowest level first. -/
def precDecls : List (Assoc × List Nat) := [
'''
    lv={}
    for a,(l,k) in prec.items(): lv.setdefault((l,k),[]).append(a)
    o+=',\n'.join(f'  (.{k}, [{", ".join(sn(a) for a in v)}])' for (l,k),v in sorted(lv.items()))+']\n'
    o+='\nend Verif.LR\n'
    open(OUT+'Grammar.lean','w').write(o)
    # ---------- tries
    OFF={'yytranslate':0,'yystos':0,'yyr1':0,'yyr2':0,'yydefact':0}
    o='''import Verif.LR.Tables
import Verif.LR.TrieInt
/-! GENERATED by tools/genlr.py. Packed copies of the parser tables (proof-internal; entries shifted by 1000), checked equal to the lists. -/
set_option maxRecDepth 200000
set_option linter.all false
namespace Verif.LR

'''
    for n in tabs:
        l=[x+1000 for x in T[n]]
        o+=f'def {n}T : Trie := {trie(l,depth(l))}\n'
        o+=f'theorem {n}T_agree : agreeI {n}T {n} 0 = true := by decide +kernel\n'
        o+=f'theorem {n}_len : {n}.length = {len(l)} := by decide +kernel\n'
        o+=f'theorem {n}_get (i : Nat) (h : i < {len(l)}) : {n}[i]? = some (({n}T.get i : Int) - 1000) := by\n  have := agreeI_spec {n}T {n} 0 {n}T_agree i (by rw [{n}_len]; exact h)\n  rw [Nat.zero_add] at this; exact this\n\n'
    o+='end Verif.LR\n'
    open(OUT+'Tries.lean','w').write(o)
    # ---------- certificate data
    def bt(xs,f,b):
        if b==0: return f'(.leaf {f(xs[0])})' if xs else '.nil'
        h=1<<(b-1)
        if not xs: return '.nil'
        return f'(.node {h} {bt(xs[:h],f,b-1)} {bt(xs[h:],f,b-1)})'
    def KLs(l):
        s='.nil'
        for (r,k,m) in reversed(l): s=f'(.cons {r} {k} {hex(m if r!=1 else 1)} {s})'
        return s
    def PLs(d):
        s='.nil'
        for A,m in sorted(d.items(),reverse=True): 
            assert m
            s=f'(.cons {A} {hex(m)} {s})'
        return s
    def enc(a): return 0 if a[0]=='e' else 2*a[1]+1 if a[0]=='r' else 2*a[1]+2
    def RLs(d):
        s='.nil'
        for a,m in sorted(d.items(),key=lambda x:enc(x[0]),reverse=True): s=f'(.cons {enc(a)} {hex(m)} {s})'
        return s
    for s in range(NS):
        for (r,k,m) in K[s]: assert m or r==1
        K[s]=[(r,k,m) for (r,k,m) in K[s]]
    OPL={'unary_expr','binary_expr','logic_expr','comp_expr'}
    for r in range(1,len(R)):
        if names[R[r][0]] not in OPL: FRm[r]=FSm[r]=0
    o='''import Verif.LR.CertDefs
/-! GENERATED by tools/genlr.py. LALR item-set certificate (proof-internal data, checked by the kernel). -/
set_option maxRecDepth 200000
set_option linter.all false
namespace Verif.LR

'''
    o+=f'def ruT : BT Rule := {bt(list(range(len(R))),lambda r: "("+str(R[r][0])+", ["+", ".join(map(str,R[r][1]))+"])",9)}\n'
    o+=f'def bylT : BT (List Nat) := {bt(list(range(NSYM)),lambda A: "["+", ".join(map(str,byl.get(A,[])))+"]",9)}\n'
    o+=f'def firstT : BT Nat := {bt(list(range(NSYM)),lambda A: hex(first[A]),9)}\n'
    o+=f'def nullM : Nat := {hex(sum(1<<x for x in nullable))}\n'
    o+=f'def frT : BT Nat := {bt(list(range(len(R))),lambda r: hex(FRm[r]),9)}\n'
    o+=f'def fsT : BT Nat := {bt(list(range(len(R))),lambda r: hex(FSm[r]),9)}\n'
    # weights
    WT=9
    W={x:WT for x in range(NT)}; W.update({x:10**6 for x in range(NT,NSYM)})
    for it in range(10000):
        ch=False
        for i,(l,rhs) in enumerate(R):
            if i<1: continue
            v=sum(W[x] for x in rhs)-1
            if v<W[l]: W[l]=v;ch=True
        if not ch: break
    assert not ch; print('weights',min(W.values()),max(W.values()))
    o+=f'/-- weight + 100 -/\ndef wT : BT Nat := {bt(list(range(NSYM)),lambda A: str(W[A]+100),9)}\n'
    for s in range(NS):
        o+=f'def st{s} : St := .mk {KLs(K[s])} {PLs(Pd[s])} {RLs(ROWS[s])}\n'
    o+=f'def stT : BT St := {bt(list(range(NS)),lambda s: f"st{s}",10)}\n'
    o+='end Verif.LR\n'
    open(OUT+'CertData.lean','w').write(o)
