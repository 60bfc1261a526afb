#!/usr/bin/env python3
"""Translate the semantic actions of bison_parser.y, the constructors and Expr::make* of src/sql into Lean
(Verif/Sem/Layout.lean, Verif/Sem/Actions.lean).  A handful of actions is written by hand (OVERRIDE)."""
import re, glob, sys
from grammar import rules, decl, T, C
OUT='/verif/lean/Verif/Sem/'
SQL='/repo/src/sql/'
# ---------------------------------------------------------------- headers
src={f:open(f).read() for f in sorted(glob.glob(SQL+'*.h')+glob.glob(SQL+'*.cpp'))}
def strip(s): return re.sub(r'//[^\n]*', lambda m:' '*len(m.group(0)), re.sub(r'/\*.*?\*/', lambda m: re.sub(r'[^\n]',' ',m.group(0)), s, flags=re.S))
src={f:strip(s) for f,s in src.items()}
enums={}; enum_order=[]
for f,s in src.items():
    if not f.endswith('.h'): continue
    for m in re.finditer(r'enum\s+(?:class\s+|struct\s+)?(\w+)\s*\{([^}]*)\}',s):
        vals=[v.strip() for v in m.group(2).split(',') if v.strip()]
        ln=s[:m.start()].count('\n')+1
        enum_order.append((m.group(1),f,ln))
        for i,v in enumerate(vals):
            assert '=' not in v
            enums[(m.group(1),v)]=i
unscoped={}
for (e,v),i in enums.items(): unscoped.setdefault(v,[]).append((e,i))
structs={}  # name -> (base, [(type,field)], file, line)
for f,s in src.items():
    if not f.endswith('.h'): continue
    for m in re.finditer(r'struct\s+(\w+)\s*(?::\s*(\w+)\s*)?\{',s):
        if s[:m.start()].rstrip().endswith('enum'): continue
        d=1;j=m.end()
        while d: d+={'{':1,'}':-1}.get(s[j],0); j+=1
        body=s[m.end():j-1]
        fs=[]
        for st in body.split(';'):
            st=re.sub(r'\b(private|public)\s*:','',st).strip()
            if not st or '(' in st or '~' in st: continue
            mm=re.match(r'(.*?[\s\*>])(\w+)$',st,re.S)
            fs.append((re.sub(r'\s+','',mm.group(1)),mm.group(2)))
        structs[m.group(1)]=(m.group(2),fs,f,s[:m.start()].count('\n')+1)
def fields(c):
    b,fs,_,_=structs[c]
    return (fields(b) if b else [])+fs
CLS="Expr FrameBound FrameDescription WindowDescription OrderDescription LimitDescription GroupByDescription WithDescription SetOperation LockingClause SelectStatement Alias TableRef JoinDefinition TableConstraint ReferencesSpecification ForeignKeyConstraint ColumnDefinition ColumnConstraints CreateStatement CsvOptions ImportExportOptions ImportStatement ExportStatement InsertStatement DeleteStatement UpdateClause UpdateStatement DropStatement DropColumnAction AlterStatement ExecuteStatement PrepareStatement ShowStatement TransactionStatement".split()
PAIRS={'IntPair':[('int64_t','first'),('int64_t','second')],'CsvOptionPair':[('CsvOptionType','first'),('char*','second')]}
def fieldsX(c): return PAIRS[c] if c in PAIRS else fields(c)
# constructors
ctors={}
for f,s in src.items():
    if not f.endswith('.cpp'): continue
    for m in re.finditer(r'\b(\w+)::\1\(([^)]*)\)\s*(?::\s*((?:[^{};]|\{[^{}]*\})*?))?\s*\{\s*\}',s):
        c=m.group(1); params=[re.match(r'(.*?[\s\*>])(\w+)$',p.strip(),re.S).groups() for p in re.split(r',(?![^<]*>)',m.group(2)) if p.strip()]
        params=[(re.sub(r'\s+','',a),b) for a,b in params]
        inits=[]
        if m.group(3):
            for mm in re.finditer(r'(\w+)\s*(?:\(((?:[^()]|\([^()]*\))*)\)|\{((?:[^{}]|\{[^{}]*\})*)\})',m.group(3)):
                inits.append((mm.group(1),(mm.group(2) if mm.group(2) is not None else mm.group(3)).strip()))
        ctors[c]=(params,inits,f,s[:m.start()].count('\n')+1,s[:m.end()].count('\n')+1)
def rel(f): return f.replace('/repo/','')
def low(c): return c[0].lower()+c[1:]
def enumref(e):
    e=e.split('::')
    if len(e)==2: assert (e[0],e[1]) in enums,e; return f'{e[0]}.{e[1]}'
    c=unscoped[e[0]]; assert len(c)==1,e; return f'{c[0][0]}.{e[0]}'
def isenum(e):
    e2=e.split('::')
    return (len(e2)==2 and tuple(e2) in enums) or (len(e2)==1 and e in unscoped and len(unscoped[e])==1)
out=[]
W=out.append
W('import Verif.Sem.Prog')
W('/-! Generated by tools/genact.py from src/sql/*.h and src/sql/*.cpp: enumerators, field numbers, constructors. -/')
W('namespace Verif.Sem\n')
for e,f,ln in enum_order:
    W(f'/-! `enum {e}` ({rel(f)}:{ln}) -/')
    for (e2,v),i in enums.items():
        if e2==e: W(f'abbrev {e}.{v} : Int := {i}')
W('')
for c in CLS+list(PAIRS)+['TableName','ColumnType']:
    if c in structs: W(f'/-! Fields of `{c}` ({rel(structs[c][2])}:{structs[c][3]}) -/')
    else: W(f'/-! Members of the `std::pair` `{c}` (src/parser/bison_parser.y:164-170) -/')
    for i,(t,n) in enumerate(fieldsX(c)): W(f'abbrev {c}.{n} : Sel := .fld {i}')
W('')
def ctor_atoms(c,args):
    """atoms for the fields of class c, constructor parameters bound to the Lean terms args"""
    base,fs,_,_=structs[c]
    params,inits,f,l1,l2=ctors[c]
    env=dict(zip([b for _,b in params],args))
    d=dict(inits)
    res=[]
    if base:
        if base in d:
            ba=[atomof(x.strip(),env) for x in d[base].split(',')]
            res+=ctor_atoms(base,ba)
        else: res+=ctor_atoms(base,[]) if base in ctors else []
    for t,n in fs:
        if n not in d: res.append('.undef')
        elif d[n]=='DataType::UNKNOWN, 0': res.append('.unknownType')
        else: res.append(atomof(d[n],env))
    return res
def atomof(x,env):
    if x in env: return env[x]
    if x=='nullptr': return '.null'
    if x in('true','false'): return f'.int {int(x=="true")}'
    if re.match(r'-?\d+$',x): return f'.int {x}'
    if isenum(x): return f'.int {enumref(x)}'
    raise Exception(x)
ZERO={'WithDescription','UpdateClause','LockingClause'}  # no user-provided constructor: `new C()` value-initialises
for c in CLS:
    if c in ('ColumnConstraints',): continue
    if c in ZERO:
        ats=['.null' if t.endswith('*') else '.int 0' for t,_ in fields(c)]
        W(f'/-- `new {c}()`: value-initialised, the class has no constructor ({rel(structs[c][2])}:{structs[c][3]}). -/')
        W(f'def new{c} : Rv := .obj .{c} [{", ".join(ats)}]')
        continue
    params,inits,f,l1,l2=ctors[c]
    ps=[b+'_' for _,b in params]
    ats=ctor_atoms(c,ps)
    assert len(ats)==len(fields(c)),c
    W(f'/-- `new {c}` ({rel(f)}:{l1}-{l2}). -/')
    W(f'def new{c}'+(''.join(f' ({p} : Atom)' for p in ps))+f' : Rv := .obj .{c} [{", ".join(ats)}]')
W('\nend Verif.Sem')
open(OUT+'Layout.lean','w').write('\n'.join(out)+'\n')
# ---------------------------------------------------------------- types of symbols
union={}
m=re.search(r'%union \{(.*?)\n\}',decl,re.S)
for st in strip(m.group(1)).split(';'):
    st=st.strip()
    if not st: continue
    mm=re.match(r'(.*?[\s\*>])(\w+)$',st,re.S)
    union[mm.group(2)]=re.sub(r'\s+','',mm.group(1)).replace('hsql::','')
stype={}
for m in re.finditer(r'^%(type|token)\s+<(\w+)>\s+(.*)$',decl,re.M):
    for x in m.group(3).split(): stype[x]=m.group(2)
def ctype(sym):
    return union[stype[sym]] if sym in stype else None
def clsof(t):
    if t=='std::pair<int64_t,int64_t>*': return 'IntPair'
    if t=='std::pair<CsvOptionType,char*>*': return 'CsvOptionPair'
    return t.rstrip('*')
# ---------------------------------------------------------------- translator
class Ctx:
    def __init__(s,rule):
        s.rule=rule; s.loc={}; s.ntemp=10
def tokenize(a):
    return re.findall(r'"(?:[^"\\]|\\.)*"|\$\$|\$\d+|[A-Za-z_]\w*(?:::\w+)*|\d+|->|==|!=|&&|\|\||[-+*/%<>=!&|(){}\[\];,.:?]',a)
class P:
    def __init__(s,toks,rule): s.t=toks; s.i=0; s.rule=rule; s.loc={}; s.ntemp=10
    def peek(s,k=0): return s.t[s.i+k] if s.i+k<len(s.t) else None
    def next(s): s.i+=1; return s.t[s.i-1]
    def eat(s,x): assert s.next()==x,(s.t[max(0,s.i-8):s.i+4],x,s.rule)
    # expressions -> AST
    def primary(s):
        t=s.next()
        if t=='$$' or t[0]=='$':
            e=('path',0 if t=='$$' else int(t[1:]),[])
        elif t=='nullptr': return ('null',)
        elif t in('true','false'): return ('int',str(int(t=='true')),'bool')
        elif re.match(r'\d+$',t): return ('int',t,'int')
        elif t[0]=='"': return ('strlit',t[1:-1])
        elif t=='new':
            ty=''
            while s.peek() not in ('(','{'): ty+=s.next()
            ty=ty.replace('hsql::','')
            close={'(':')','{':'}'}[s.next()]
            return ('new',ty,s.args(close))
        elif t=='(':
            # cast or parenthesised
            if s.peek(1)==')' and re.match(r'\w+$',s.peek()) and s.peek(2) and s.peek(2)[0]=='$':
                s.next(); s.next(); return s.postfix()
            e=s.postfix(); s.eat(')')
        elif t=='ColumnType': s.eat('{'); return ('coltype',s.args('}'))
        elif t in s.loc: e=('path',s.loc[t][0],[],s.loc[t][1])
        elif s.peek()=='(' : s.next(); return ('call',t,s.args(')'))
        elif isenum(t): return ('int',enumref(t),t)
        elif t in ('yylloc','yyloc','result','scanner'): e=('ext',[t])
        else: raise Exception((t,s.rule))
        return e
    def args(s,close):
        a=[]
        while s.peek()!=close:
            a.append(s.postfix())
            if s.peek()==',': s.next()
        s.next(); return a
    def postfix(s):
        if s.peek()=='*': s.next()
        if s.peek()=='&': s.next()
        e=s.primary()
        while s.peek() in('->','.'):
            s.next(); n=s.next()
            if s.peek()=='(' :
                s.next(); a=s.args(')')
                if n=='back': e=(e[0],e[1],e[2]+['back()'])+e[3:]
                else: return ('mcall',e,n,a)
            elif e[0]=='ext': e=('ext',e[1]+[n])
            else: e=(e[0],e[1],e[2]+[n])+e[3:]
        return e
    # conditions
    def cond(s):
        e=s.cand()
        while s.peek()=='||': s.next(); e=('or',e,s.cand())
        return e
    def cand(s):
        e=s.catom()
        while s.peek()=='&&': s.next(); e=('and',e,s.catom())
        return e
    def catom(s):
        if s.peek()=='!': s.next(); return ('not',s.catom())
        e=s.postfix()
        if s.peek() in('==','!='):
            op=s.next(); r=s.postfix(); c=('cmp',e,r)
            return c if op=='==' else ('not',c)
        return ('truth',e)
    def block(s):
        if s.peek()=='{':
            s.next(); l=[]
            while s.peek()!='}': l+=s.stmt()
            s.next(); return l
        return s.stmt()
    def stmt(s):
        t=s.peek()
        if t==';': s.next(); return []
        if t=='{': return s.block()
        if t=='if':
            s.next(); s.eat('('); c=s.cond(); s.eat(')'); a=s.block(); b=[]
            if s.peek()=='else': s.next(); b=s.block()
            return [('if',c,a,b)]
        if t=='delete': s.next(); e=s.postfix(); s.eat(';'); return [('del',e)]
        if t=='free': s.next(); s.eat('('); e=s.postfix(); s.eat(')'); s.eat(';'); return [('free',e)]
        if t=='YYERROR': s.next(); s.eat(';'); return [('YYERROR',)]
        if t=='yyerror':
            e=s.postfix(); s.eat(';'); return [('yyerror',e[2][3][1])]
        if t=='auto':
            s.next(); n=s.next(); s.eat('='); e=s.postfix(); s.eat(';')
            ty=e[1]+'*' if e[0]=='new' else 'int'
            s.loc[n]=(s.ntemp,ty); s.ntemp+=1
            return [('asg',('path',s.loc[n][0],[],ty),e)]
        e=s.postfix()
        if s.peek()=='=': s.next(); r=s.postfix(); s.eat(';'); return [('asg',e,r)]
        s.eat(';'); return [('expr',e)]
class Gen:
    def __init__(g,rule):
        g.rule=rule; g.ix,g.lhs,g.rhs,g.act,g.ln=rule
        g.temps=[10,11]
    def ptype(g,e):
        """C++ type of a path, and Lean selectors"""
        _,v,fs=e[:3]
        if len(e)>3: t=e[3]
        else: t=ctype(g.lhs) if v==0 else ctype(g.rhs[v-1])
        sels=[]
        for n in fs:
            if n=='back()':
                m=re.match(r'std::vector<(.*)>\*$',t); t=m.group(1); sels.append('.back'); continue
            c=clsof(t)
            if c=='SQLStatement' or c=='AlterAction': fl=fields(c); 
            else: fl=fieldsX(c)
            k=[i for i,(ty,nm) in enumerate(fl) if nm==n]
            assert len(k)==1,(e,c,n)
            owner=c
            sels.append(('SelectStatement' if c=='SQLStatement' else c)+'.'+n); t=fl[k[0]][0]
        return t,sels
    def path(g,e):
        t,sels=g.ptype(e)
        return f'⟨{e[1]}, [{", ".join(sels)}]⟩'
    def atom(g,e,pre):
        """Lean atom; pre collects Lean statements to run before"""
        if e[0]=='null': return '.null'
        if e[0]=='int': return f'.int {e[1]}'
        if e[0]=='path':
            t,_=g.ptype(e)
            return ('.mv ' if t.endswith('*') or t in('ColumnType',) else '.cp ')+g.path(e)
        if e==('ext',['yylloc','string_length']): return '.strLen'
        if e==('ext',['yylloc','total_column']): return '.totalCol'
        if e[0]=='mcall' and e[1]==('ext',['yyloc','param_list']) and e[2]=='size': return '.nParams'
        tmp=g.temps.pop(0)
        pre+=g.assign(f'⟨{tmp}, []⟩',tmp,e)
        return f'.mv ⟨{tmp}, []⟩'
    def typ(g,e):
        if e[0]=='path': return g.ptype(e)[0]
        if e[0]=='int': return e[2]
        return None
    def assign(g,dst,dvar,e):
        """statements assigning e to the path dst (variable dvar if it is a plain variable)"""
        pre=[]
        A=lambda x: '('+g.atom(x,pre)+')'
        if e[0]=='new':
            ty,args=e[1],e[2]
            if ty.startswith('std::vector'):
                assert not args; return [f'.set {dst} (.vec [])']
            c=clsof(ty+'*')
            if c in PAIRS:
                a=[g.atom(x,pre) for x in args]
                return pre+[f'.set {dst} (.obj .{c} [{", ".join(a)}])']
            if c=='ColumnConstraints': return [f'newColumnConstraints {dvar}']
            a=[A(x) for x in args]
            if c=='Alias' and len(a)==1: a.append('.null')
            return pre+[f'.set {dst} (new{c}'+''.join(' '+x for x in a)+')']
        if e[0]=='coltype':
            a=[g.atom(x,pre) for x in e[1]]
            a+=['.int 0']*(4-len(a))
            return pre+[f'.set {dst} (.tup [{", ".join(a)}])']
        if e[0]=='call':
            n=e[1].replace('Expr::','');args=e[2]
            if n=='caseListAppend':
                a=g.atom(args[1],pre); p=args[0]
                return pre+[f'.push ⟨{p[1]}, [Expr.exprList]⟩ ({a})', f'.set {dst} (.atom (.mv ⟨{p[1]}, []⟩))']
            if n=='makeCase':
                a=[A(args[0]),str(args[1][1]),A(args[2])]
                return pre+[f'makeCase {dvar} {a[0]} {a[1]} {a[2]}']
            suf=''
            if n=='makeLiteral': suf={'char*':'String','double':'Float','int64_t':'Int','bool':'Bool'}[g.typ(args[0])]
            if n=='makeInOperator': suf='Select' if g.typ(args[1])=='SelectStatement*' else 'List'
            if n=='makeFunctionRef' and len(args)==5: suf='Schema'
            if n=='makeColumnRef' and len(args)==2: suf='Table'
            if n=='makeStar' and len(args)==1: suf='Table'
            a=[A(x) for x in args]
            return pre+[f'{n}{suf} {dvar}'+''.join(' '+x for x in a)]
        a=g.atom(e,pre)
        return pre+[f'.set {dst} (.atom ({a}))']
    def stmts(g,l,k):
        """Lean Prog term for statement list l followed by Lean term k"""
        if not l: return k
        s=l[0]; rest=lambda: g.stmts(l[1:],k)
        saved=list(g.temps)
        def seq(lines): return ' <|\n  '.join(lines)+' <|\n  '+rest()
        if s[0]=='asg':
            d,e=s[1],s[2]
            if d==('ext',['yylloc','string_length']): return seq(['.zeroLen'])
            if d[0]=='path' and d[1]==0 and len(d[2])==1 and ctype(g.lhs)=='TableName' : pass
            lines=g.assign(g.path(d),d[1] if not d[2] else None,e)
            if e[0] in ('new','call') and d[2] and any(x.startswith('make') for x in lines): raise Exception('maker into field')
            g.temps=saved
            return seq(lines)
        if s[0]=='del': return seq([f'.del {g.path(s[1])}'])
        if s[0]=='free': return seq([f'.free {g.path(s[1])}'])
        if s[0]=='YYERROR': return '.fail'
        if s[0]=='yyerror': return seq([f'.err b!"{s[1]}"'])
        if s[0]=='if': return g.cond(s[1],lambda: g.stmts(s[2]+l[1:],k),lambda: g.stmts(s[3]+l[1:],k))
        if s[0]=='expr':
            e=s[1]; assert e[0]=='mcall',e
            obj,m,args=e[1],e[2],e[3]
            if obj==('ext',['yyloc','param_list']): return seq([f'.regParam {g.path(args[0])}'])
            if m in('push_back','emplace_back'):
                pre=[]; a=g.atom(args[0],pre); assert not pre
                return seq([f'.push {g.path(obj)} ({a})'])
            if m=='insert':
                pre=[]; a=g.atom(args[0],pre); return seq([f'.insert {g.path(obj)} ({a})'])
            if m=='setColumnDefsAndConstraints': return seq([f'.split {g.path(obj)} {g.path(args[0])}'])
        raise Exception((s,g.rule))
    def cond(g,c,t,e):
        if c[0]=='not': return g.cond(c[1],e,t)
        if c[0]=='and': return g.cond(c[1],lambda: g.cond(c[2],t,e),e)
        if c[0]=='or': return g.cond(c[1],t,lambda: g.cond(c[2],t,e))
        I=lambda x: x.replace('\n','\n  ')
        def ite(cc,a,b): return f'.ite ({cc})\n  ({I(a())})\n  ({I(b())})'
        if c[0]=='truth':
            x=c[1]
            if x[0]=='mcall' and x[1]==('ext',['result']) and x[2]=='errorMsg': return ite('.err',t,e)
            return ite(f'.null {g.path(x)}',e,t)
        if c[0]=='cmp':
            a,b=c[1],c[2]
            if a[0]=='call' and a[1]=='strcasecmp': return ite(f'.strIs {g.path(a[2][0])} b!"{a[2][1][1]}"',t,e)
            if b==('null',): return ite(f'.null {g.path(a)}',t,e)
            return ite(f'.eq {g.path(a)} {b[1] if b[0]=="int" else "?"}',t,e)
        raise Exception(c)
OVERRIDE={}
for (ix,lhs,rhs,act,ln) in rules:
    if act is None: continue
    if lhs=='input': OVERRIDE[ix]='.finish'
    if lhs=='column_def': OVERRIDE[ix]='columnDef'
    if act and 'accept_csv_option' in act: OVERRIDE[ix]='csvOptionNext' if len(rhs)==3 else 'csvOptionFirst'
    if lhs=='date_literal': OVERRIDE[ix]='dateLiteral'
    if lhs=='interval_literal' and 'sscanf' in act: OVERRIDE[ix]='intervalField' if len(rhs)==3 else 'intervalUnit'
res=[]
endline={}
for (ix,lhs,rhs,act,ln) in rules[2:]:
    doc=f'/-- `{lhs} : {" ".join(rhs) if rhs else "/* empty */"}` (src/parser/bison_parser.y:{ln}-{ln+(act.count(chr(10)) if act else 0)})'
    doc=doc.replace('/* empty */','%empty')
    if ix in OVERRIDE: body=OVERRIDE[ix]; doc+='; written by hand'
    elif act is None:
        if rhs and lhs in stype: body='.set ⟨0, []⟩ (.atom (%s ⟨1, []⟩)) <|\n  .ret'%('.mv' if ctype(lhs).endswith('*') else '.cp'); doc+='; default action'
        else: body='.ret'; doc+='; no value'
    else:
        a=strip(act)
        p=P(tokenize(a),(ix,lhs,ln)); l=p.block(); assert p.i==len(p.t)
        g=Gen((ix,lhs,rhs,act,ln)); 
        g.temps=[x for x in g.temps if x not in [v[0] for v in p.loc.values()]]
        body=g.stmts(l,'.ret')
        if ctype(lhs)=='TableName': body='.set ⟨0, []⟩ (.tup [.undef, .undef]) <|\n  '+body
    res.append((ix,doc+' -/',body))
out=[]
W=out.append
W('import Verif.Sem.Makers')
W('/-! Generated by tools/genact.py from src/parser/bison_parser.y: the semantic action of every rule. -/')
W('namespace Verif.Sem\n')
for ix,doc,body in res:
    W(doc); W(f'def act{ix} : Prog :=\n  {body}')
W('')
W('/-- The actions of rules 2 to 357, in order. -/')
W('def actions : List Prog := [')
names=[f'act{ix}' for ix,_,_ in res]
for i in range(0,len(names),12): W('  '+', '.join(names[i:i+12])+(',' if i+12<len(names) else ''))
W(']')
W('\nend Verif.Sem')
open(OUT+'Actions.lean','w').write('\n'.join(out)+'\n')
# ---------------------------------------------------------------- %destructor
if __name__=='__main__':
    print(len(res),'actions')
