"""Generates lean/Verif/Lex/Tables.lean (verbatim flex tables) , LexTries (packed copies), LexMasks (certificate)."""
from flextab import *
OUT='/verif/lean/Verif/Lex/'
def lst(l,w=20): return '['+',\n   '.join(', '.join(map(str,l[i:i+w])) for i in range(0,len(l),w))+']'
def trie(l,b):
    if b==8:
        v=0
        for i,x in enumerate(l): assert 0<=x<65536; v|=x<<(16*i)
        return f'(.leaf {hex(v)})'
    h=1<<(b-1)
    return f'(.node {h} {trie(l[:h],b-1)} {trie(l[h:],b-1)})' if len(l)>h else f'(.node {h} {trie(l,b-1)} (.leaf 0))'
def depth(l):
    b=8
    while (1<<b)<len(l): b+=1
    return b
names=['yy_accept','yy_ec','yy_meta','yy_base','yy_def','yy_nxt','yy_chk']
o='''import Verif.Util
/-!
GENERATED by tools/genlex.py. The scanner tables of src/parser/flex_lexer.cpp, entry for entry.
-/
set_option maxRecDepth 200000
set_option linter.all false
namespace Verif.Lex

'''
for n in names:
    o+=f'/-- src/parser/flex_lexer.cpp:{L[n][0]}-{L[n][1]}, `{n}` ({len(T[n])} entries). -/\ndef {n} : List Nat :=\n  {lst(T[n])}\n\n'
o+='end Verif.Lex\n'
open(OUT+'Tables.lean','w').write(o)
o='''import Verif.Lex.Tables
/-! GENERATED by tools/genlex.py. Packed copies of the scanner tables (proof-internal), checked equal to the lists. -/
set_option maxRecDepth 200000
set_option linter.all false
namespace Verif.Lex

'''
for n in names:
    o+=f'def {n}T : Trie := {trie(T[n],depth(T[n]))}\n'
    o+=f'theorem {n}T_agree : {n}T.agree {n} 0 = true := by decide +kernel\n'
    o+=f'theorem {n}_len : {n}.length = {len(T[n])} := by decide +kernel\n'
    o+=f'theorem {n}_get (i : Nat) (h : i < {len(T[n])}) : {n}.getD i 0 = {n}T.get i := by\n  have := {n}T.agree_spec {n} 0 {n}T_agree i (by rw [{n}_len]; exact h)\n  rw [Nat.zero_add] at this; exact this\n\n'
o+='end Verif.Lex\n'
open(OUT+'Tries.lean','w').write(o)
