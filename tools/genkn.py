import re
S=open('/verif/lean/Verif/Sql/Syntax.lean').read()
St=open('/verif/lean/Verif/Sql/Stmt.lean').read()
def split_top(s):
    out=[];d=0;cur=''
    for ch in s:
        if ch in '([': d+=1
        if ch in ')]': d-=1
        if ch==',' and d==0: out.append(cur.strip()); cur=''
        else: cur+=ch
    if cur.strip(): out.append(cur.strip())
    return out
def term(x):
    x=x.strip()
    if x=='[]': return 'K_nil'
    m=re.fullmatch(r'cat \[(.*)\]',x)
    if m:
        ps=split_top(m.group(1))
        r=f'(K1 {term(ps[-1])})'
        for p in reversed(ps[:-1]): r=f'(K2 {term(p)} {r})'
        return r
    if re.fullmatch(r'(Sql\.)?kw T\.\w+',x): return '(K_kw rfl)'
    m=re.fullmatch(r'(?:Sql\.)?kw (\w+)\.(kws?)',x)
    if m: return f'(by cases {m.group(1)} <;> exact K_kw rfl)'
    if re.fullmatch(r'nm .*',x): return 'K_nm'
    if re.fullmatch(r'\[\.(int|str|flt|par) \w+\]',x): return 'K_'+re.match(r'\[\.(\w+)',x).group(1)
    m=re.fullmatch(r'(\w+)\.words',x)
    if m: return f'{m.group(1)}.kn'
    m=re.fullmatch(r'par (\(.*?\)|\w+\.\w+) (\w+)\.words',x)
    if m: return f'(K_par {m.group(2)}.kn)'
    m=re.fullmatch(r'(notKw|distinctKw|topWords|ifNotExists|ifExists|colsWords|whereW|nameW|xlitsW) (\w+)',x)
    if m: return f'(K_{m.group(1)} {m.group(2)})'
    if x.startswith('(match w with'): return '(match w with | .none => K_nil | .some e => K2 (K_kw rfl) (K1 e.kn))'
    raise Exception(x)
def gen(src,i0):
    """all defs X.words in src in order"""
    out=[]
    lines=src.splitlines()
    i=0
    while i<len(lines):
        l=lines[i]
        if l=='mutual' and any('def Expr.words' in z for z in lines[i:i+3]): out.append('mutual')
        if l=='end' and out and 'mutual' in out and out.count('mutual')>out.count('end'): out.append('end')
        m=re.match(r'def (\w+)\.words : (\w+) → List Word$',l)
        m2=re.match(r'def (\w+) : (.*?) → List Word$',l)
        if (m or (m2 and m2.group(1) in ('notKw','distinctKw','topWords','ifNotExists','ifExists','colsWords','whereW','nameW','xlitsW'))):
            if m: head=f'theorem {m.group(1)}.kn : ∀ x : {m.group(2)}, K x.words'
            else: head=f'theorem K_{m2.group(1)} : ∀ x : {m2.group(2)}, K ({m2.group(1)} x)'
            cs=[]
            i+=1
            while i<len(lines) and lines[i].startswith('  | '):
                # may have several cases per line
                for c in re.split(r' (?=\| [.\w⟨])(?![^(]*\))',lines[i].strip()):
                    mm=re.match(r'\| (.*?) => (.*)$',c)
                    cs.append((mm.group(1),mm.group(2)))
                i+=1
            out.append(head)
            if 'Clause' in head:
                p,r=cs[0]
                i1=r.index('(match'); i2=r.index(')',r.index('e.words]'))+1
                cs=[(p.replace(' w ',' .none '),r[:i1]+'[]'+r[i2:]),(p.replace(' w ',' (.some e) '),r[:i1]+'cat [kw T.WHERE, e.words]'+r[i2:])]
            for p,r in cs: out.append(f'  | {p} => {term(r)}')
            continue
        i+=1
    return out
o1=gen(S,0); o2=gen(St,0)
hdr='''import Verif.Sql.Stmt
import Verif.Sql.Render
/-! The keywords of scripts have texts. Generated from `Syntax.lean` and `Stmt.lean` by tools/genkn.py. Proof-internal. -/
namespace Verif.Sql
open Verif.Lex Verif.LR Verif.Sem

def K (ws : List Word) : Prop := ∀ a, Word.kw a ∈ ws → Known a
theorem K_nil : K [] := fun _ h => absurd h (by simp)
theorem K_kw {a : Nat} (h : (spellings.any fun e => e.1 == a) = true) : K [.kw a] := fun b hb => by
  cases List.mem_singleton.1 hb; exact h
theorem K_nm {b : Name} : K (nm b) := fun _ h => by cases List.mem_singleton.1 h
theorem K_int {n : Int} : K [.int n] := fun _ h => by cases List.mem_singleton.1 h
theorem K_str {b : Bytes} : K [.str b] := fun _ h => by cases List.mem_singleton.1 h
theorem K_flt {b : Bytes} : K [.flt b] := fun _ h => by cases List.mem_singleton.1 h
theorem K_par' {k : Nat} : K [.par k] := fun _ h => by cases List.mem_singleton.1 h
theorem K1 {x : List Word} (h : K x) : K (cat [x]) := h
theorem K2 {x y : List Word} {r : List (List Word)} (h : K x) (h2 : K (cat (y :: r))) : K (cat (x :: y :: r)) := fun a ha => (List.mem_append.1 ha).elim (h a) (h2 a)
theorem K_par {b : Bool} {x : List Word} (h : K x) : K (par b x) := by
  cases b
  · exact K2 (K_kw rfl) (K2 h (K1 (K_kw rfl)))
  · exact h

'''
txt=hdr+"\n".join(o1)+"\n\n"+"\n".join(o2)
txt=txt.replace('| .param k => K_par','| .param k => K_par\'')
txt+='''
theorem Script.text_kn (s : Script) (b : Bool) : K (s.text b) := by
  cases b
  · exact s.kn
  · exact K2 s.kn (K1 (K_kw rfl))

end Verif.Sql
'''
open('/verif/lean/Verif/Sql/Known.lean','w').write(txt)
