#!/usr/bin/env python3
"""Checks the assertions of the unit tests in /repo/test against the model.

The test bodies are read as text and translated to Python; SQLParser::parse and SQLParser::tokenize are answered by the
Lean model (interpreted, outside the project). Nothing of /repo is built or run. A test of the model, not a proof."""
import json, os, re, subprocess, sys
R = '/repo/test/'
LAY = open('/verif/lean/Verif/Sem/Layout.lean').read()
FIELDS, ENUM, NS = {}, {}, {}
for c, f, n in re.findall(r'^abbrev (\w+)\.(\w+) : Sel := \.fld (\d+)', LAY, re.M):
    FIELDS.setdefault(c, {})[f] = int(n)
for c, f, n in re.findall(r'^abbrev (\w+)\.(\w+) : Int := (\d+)', LAY, re.M):
    ENUM[f] = int(n); NS.setdefault(c, {})[f] = int(n)

class Obj:
    def __init__(s, c, fs, a=None): s._c, s._f, s._a = c, fs, a
    def __getattr__(s, n):
        if n == 'type' and 'type' not in FIELDS[s._c]: n = 'type_'
        v = s._f[FIELDS[s._c][n]]
        # a statement has a method type() and may have a field type
        return St(v, s._f[2]) if n == 'type' and 'type_' in FIELDS[s._c] else (St(v, v) if n == 'type_' else v)
    def __eq__(s, o): return isinstance(o, Obj) and (s._a == o._a if s._a is not None else s._f == o._f)
    def isType(s, t): return s.type == t
    def isLiteral(s): return s.type in [ENUM['kExpr' + k] for k in ('LiteralInt','LiteralFloat','LiteralString','Parameter','LiteralNull','LiteralDate','LiteralInterval')]
    def hasAlias(s): return s.alias is not None
    def hasTable(s): return s.table is not None
    def getName(s):
        if s._c == 'TableRef': return s.alias.name if s.alias is not None else s.name
        return s.alias if s.alias is not None else s.name
class St(int):
    def __new__(cls, v, t):
        x = int.__new__(cls, v); x.t = t; return x
    def __call__(s): return s.t
class Vec(list):
    def __bool__(s): return True
    def empty(s): return len(s) == 0
    def at(s, i): return s[i]
    def size(s): return len(s)
    def back(s): return s[-1]
    def front(s): return s[0]
    def count(s, x): return s.__contains__(x)
def conv(j):
    if j is None or isinstance(j, int): return j
    if 'u' in j: return 'UNDEF'
    if 'n' in j: return j['n']
    if 'r' in j: return float(bytes(j['r']).decode())
    if 's' in j: return bytes(j['s']).decode()
    if 'v' in j: return Vec(conv(x) for x in j['v'])
    if 't' in j: return Obj('ColumnType' if len(j['t']) == 4 else 'TableName', [conv(x) for x in j['t']])
    return Obj(j['c'], [conv(x) for x in j['f']], j['a'])
class Result:
    def __init__(s, j): s.v, s.st, s.ps = j['valid'], Vec(conv(x) for x in j['stmts']), j['params']
    def isValid(s): return s.v
    def size(s): return len(s.st)
    def getStatement(s, i): return s.st[i]
    def getStatements(s): return s.st
    def releaseStatements(s): x, s.st = s.st, Vec(); return x
    def parameters(s):
        def find(o, a):
            if isinstance(o, Vec): return next((r for r in (find(x, a) for x in o) if r is not None), None)
            if isinstance(o, Obj):
                if o._a == a: return o
                return next((r for r in (find(x, a) for x in o._f) if r is not None), None)
        return Vec(find(s.st, a) for a in s.ps)

LEAN = '''import Verif.Api.Eval
import Verif.Api.Tokenize
open Verif Verif.Lex Verif.LR Verif.Sem Verif.Api
def bs (b : List Nat) : String := "[" ++ String.intercalate "," (b.map toString) ++ "]"
mutual
partial def js : V → String
  | .undef => "{\\"u\\":1}" | .null => "null" | .int n => toString n
  | .pos n => s!"\\{\\"n\\":{n}}" | .idx n => s!"\\{\\"n\\":{n}}"
  | .raw b => s!"\\{\\"r\\":{bs b}}" | .str _ b => s!"\\{\\"s\\":{bs b}}"
  | .vec _ vs => s!"\\{\\"v\\":{jl vs}}"
  | .obj a c fs => s!"\\{\\"a\\":{a},\\"c\\":\\"{((reprStr c).splitOn ".").getLast!}\\",\\"f\\":{jl fs}}"
  | .tup fs => s!"\\{\\"t\\":{jl fs}}"
partial def jl (l : List V) : String := "[" ++ String.intercalate "," (l.map js) ++ "]"
end
def go (s : List UInt8) : String := match evalParse heap 64 (s.length + 5) s ⟨[], false, none, 0, 0, []⟩ with
  | none => "\\"lexer-fuel\\"" | some none => "\\"undefined\\""
  | some (some o) => s!"\\{\\"valid\\":{o.res.isValid},\\"stmts\\":{jl o.res.stmts},\\"params\\":{bs o.res.params}}"
def toks (s : List UInt8) : String := match lexE 64 (s.length + 5) (lexInit [] (cText s)) [] with
  | none => "null" | some (ts, _) => "[" ++ String.intercalate "," ((ts.filter (fun t => t.code != 0)).map fun t => toString t.code) ++ "]"
def main : IO Unit := do
  let b ← IO.FS.readBinFile "/tmp/val/cases"
  let mut cur : List UInt8 := []
  for c in b.toList do
    if c == 0 then
      IO.println (go cur.reverse); IO.println (toks cur.reverse); cur := []
    else cur := c :: cur
'''
class Need(Exception): pass
CACHE, WANT, TRIED = {}, [], set()
def ask():
    os.makedirs('/tmp/val', exist_ok=True)
    open('/tmp/val/C.lean', 'w').write(LEAN)
    open('/tmp/val/cases', 'wb').write(b''.join(q.encode() + b'\0' for q in WANT))
    r = subprocess.run(['lake', 'env', 'lean', '--run', '/tmp/val/C.lean'], cwd='/verif/lean', capture_output=True, text=True)
    ls = r.stdout.split('\n')[:-1]
    if len(ls) != 2 * len(WANT): sys.exit((r.stderr + r.stdout)[:3000])
    for i, q in enumerate(WANT): CACHE[q] = (json.loads(ls[2*i]), json.loads(ls[2*i+1]))
    WANT.clear()
def need(q):
    if q not in CACHE: WANT.append(q); raise Need()
    return CACHE[q]
N = [0, 0]
CUR = ['']
def check(b, what):
    N[0] += 1
    if not b: N[1] += 1; print('FAILED', CUR[0], what)

def unstr(s):
    """masks string literals; returns text with placeholders and the table"""
    tab = []
    def f(m): tab.append(m.group(0)); return '\x01%d\x02' % (len(tab) - 1)
    return re.sub(r'"(?:[^"\\]|\\.|\\\n)*"|\'(?:[^\'\\]|\\.)\'', f, s, flags=re.S), tab
def restr(s, tab):
    return re.sub('\x01(\\d+)\x02', lambda m: tab[int(m.group(1))], s)
def expr(e):
    e = e.strip()
    e = re.sub(r'\bhsql::', '', e)
    e = re.sub(r'\((?:const )?\w+\s*\*\)\s*', '', e)
    e = re.sub(r'std::move\((\w+)\)', r'\1', e)
    e = re.sub(r'std::string\(', '(', e)
    e = re.sub(r'size_t\{(\d+)\}', r'\1', e)
    e = re.sub(r'ColumnType\{([^}]*)\}', r'CT(\1)', e)
    e = re.sub(r'\(\(\w+::(\w+)\)\)', r'\1', e)
    e = re.sub(r'\b(\w+)::(\w+)\b', r'NS["\1"]["\2"]', e)
    e = e.replace('.c_str()', '')
    e = re.sub(r'ColumnType\(', 'CT(', e)
    e = re.sub(r'^.*(?<![=!<>])=(?!=)', '', e)  # two assertions of the test suite assign instead of comparing; the value is what counts
    e = re.sub(r'\b(\d+)u\b', r'\1', e)
    e = e.replace('->', '.').replace('nullptr', 'None').replace('NULL', 'None')
    e = re.sub(r'\btrue\b', 'True', e); e = re.sub(r'\bfalse\b', 'False', e)
    e = e.replace('&&', ' and ').replace('||', ' or ')
    e = re.sub(r'!(?!=)', ' not ', e)
    return '(' + re.sub(r'\s*\n\s*', ' ', e) + ')'
def args(s):
    out, d, cur = [], 0, ''
    for c in s:
        if c in '([{': d += 1
        if c in ')]}': d -= 1
        if c == ',' and d == 0: out.append(cur); cur = ''
        else: cur += c
    return out + [cur]
def translate(body):
    body, tab = unstr(body)
    body = re.sub(r'//[^\n]*', '', body)
    out, ind = [], 1
    buf, d = '', 0
    def emit(s): out.append('  ' * ind + s)
    for c in body:
        if c in '([': d += 1
        if c in ')]': d -= 1
        if c == '{' and d == 0 and re.search(r'(^|\))\s*$', buf):
            b = buf.strip(); buf = ''
            if b == '': emit('if True:')
            else:
                m = re.match(r'for \((?:const )?\w+\s*[&*]* ?(\w+) : (.*)\)$', b, re.S)
                m2 = re.match(r'for \(auto (\w+) = size_t\{0\}; \w+ < (.*); \+\+\w+\)$', b, re.S)
                if m: emit('for %s in %s:' % (m.group(1), expr(m.group(2))))
                elif m2: emit('for %s in range(%s):' % (m2.group(1), expr(m2.group(2))))
                else: raise Exception('block ' + b)
            ind += 1; emit('pass'); continue
        if c == '{': d += 1
        if c == '}' and d > 0: d -= 1; buf += c; continue
        if c == '}' : ind -= 1; buf = ''; continue
        if c == ';' and d == 0:
            stmt(buf.strip(), emit); buf = ''
        else: buf += c
    return restr('\n'.join(out), tab)
def stmt(s, emit):
    if not s or s.startswith('printf') or s.startswith('delete '): return
    m = re.match(r'(\w+)\((.*)\)$', s, re.S)
    if m and m.group(1) == 'TEST_PARSE_SINGLE_SQL':
        q, t, cls, r, v = [x.strip() for x in args(m.group(2))]
        emit('%s = parse(%s); CK(%s.isValid(), "valid"); CK(%s.size() == 1, "size"); %s = %s.getStatement(0); CK(%s.type() == %s, "type")' % (r, expr(q), r, r, v, r, v, expr(t))); return
    if m and m.group(1) == 'TEST_PARSE_SQL_QUERY':
        q, r, n = [x.strip() for x in args(m.group(2))]
        emit('%s = parse(%s); CK(%s.isValid(), "valid"); CK(%s.size() == %s, "size")' % (r, expr(q), r, r, expr(n))); return
    if m and m.group(1) == 'TEST_CAST_STMT':
        r, i, t, cls, v = [x.strip() for x in args(m.group(2))]
        emit('%s = %s.getStatement(%s); CK(%s.type() == %s, "type")' % (v, r, i, v, expr(t))); return
    if m and m.group(1).startswith('ASSERT'):
        k, a = m.group(1), args(m.group(2))
        w = repr(s).replace('\x01', '').replace('\x02', '')
        w = repr(re.sub('\x01\\d+\x02', '<str>', s))
        if k in ('ASSERT', 'ASSERT_TRUE'): emit('CK(bool(%s), %s)' % (expr(a[0]), w))
        elif k == 'ASSERT_FALSE': emit('CK(not bool(%s), %s)' % (expr(a[0]), w))
        elif k in ('ASSERT_EQ', 'ASSERT_STREQ'): emit('CK(EQ(%s, %s), %s)' % (expr(a[0]), expr(a[1]), w))
        elif k == 'ASSERT_NEQ': emit('CK(not EQ(%s, %s), %s)' % (expr(a[0]), expr(a[1]), w))
        elif k == 'ASSERT_NULL': emit('CK(%s is None, %s)' % (expr(a[0]), w))
        elif k == 'ASSERT_NOTNULL': emit('CK(%s is not None, %s)' % (expr(a[0]), w))
        else: raise Exception(k)
        return
    m = re.match(r'SQLParser::parse\((.*),\s*&(\w+)\)$', s, re.S)
    if m: emit('%s = parse(%s)' % (m.group(2), expr(m.group(1)))); return
    m = re.match(r'SQLParser::tokenize', s)
    if re.match(r'(?:const )?(?:hsql::)?[\w:<>]+[ *&]+\w+$', s): return
    m = re.match(r'const auto interval_units = .*?\{(.*)\}$', s, re.S)
    if m:
        emit('interval_units = [%s]' % ', '.join('Pair(%s)' % x for x in re.findall(r'\{([^{}]*)\}', m.group(1)))); return
    m = re.match(r'const auto (\w+) =\s*std::vector<(\w+)>\{(.*)\}$', s, re.S)
    if m:
        emit('%s = Vec([%s])' % (m.group(1), ', '.join('Obj("%s", [%s])' % (m.group(2), expr(x)[1:-1]) for x in re.findall(r'\{([^{}]*)\}', m.group(3))))); return
    m = re.match(r'(?:const )?(?:(?:hsql::)?[\w:]+(?:<[^=]*>)?[ *&]+)?(\w+) = (.*)$', s, re.S)
    if m:
        if 'SQLParserResult{}' in m.group(2): return
        emit('%s = %s' % (m.group(1), expr(m.group(2)))); return
    if re.match(r'(?:const )?\w+(\*|&)? \w+$', s): return
    if re.match(r'delete ', s): return
    raise Exception('statement ' + s)
class Pair:
    def __init__(s, a, b): s.first, s.second = a, b
def EQ(a, b):
    if (a is None and b == 0 and not isinstance(b, float)) or (b is None and a == 0): return True
    return a == b
def parse(q):
    j = need(q)[0]
    return Result(j) if isinstance(j, dict) else j
def moved(r):
    n = Result.__new__(Result); n.v, n.st, n.ps = r.v, r.st, []
    r.v, r.st = False, Vec(); return n
env0 = dict(NS=NS, parse=parse, CK=check, EQ=EQ, Pair=Pair, Obj=Obj, Vec=Vec, None_=None,
            LLONG_MAX=2**63-1, LLONG_MIN=-2**63, CT=lambda d, l=0, p=0, s=0: Obj('ColumnType', [d, l, p, s]),
            parse_and_move=lambda q: parse(q), move_in_and_back=moved)
env0.update({k: v for k, v in ENUM.items() if k.startswith('k')})
tests = []
env0['readFileContents'] = lambda p: open('/repo/' + p).read()
for f in ('select_tests.cpp', 'sql_tests.cpp', 'prepare_tests.cpp', 'tpc_h_tests.cpp'):
    t = open(R + f).read()
    for m in re.finditer(r'^TEST\((\w+)\) \{\n(.*?)^\}', t, re.M | re.S):
        tests.append((m.group(1), m.group(2), f))
codes = []
skip = []
for n, b, f in tests:
    try: codes.append((n, compile('def t():\n  pass\n' + translate(b), n, 'exec')))
    except Exception as e: skip.append(n); print('NOT TRANSLATED', n, str(e)[:300], getattr(e, 'text', ''))
while True:
    N[:] = [0, 0]
    outs = []
    for n, c in codes:
        CUR[0] = n
        e = dict(env0)
        exec(c, e)
        try: e['t']()
        except Need: pass
        except Exception as x: N[1] += 1; print('ERROR', n, type(x).__name__, x)
    if not WANT: break
    print('asking the model about', len(WANT), 'texts')
    ask()
# the tokenizer test
tok = {k: int(v) for k, v in re.findall(r'SQL_(\w+) = (\d+)', open('/repo/src/parser/bison_parser.h').read())}
for q, l in re.findall(r'test_tokens\("([^"]*)",\s*\{([^}]*)\}\)', open(R + 'sql_parser.cpp').read()):
    exp = [ord(x[1]) if x[0] == "'" else tok[x[4:]] for x in re.findall(r"'.'|SQL_\w+", l)]
    try: need(q)
    except Need: ask()
    CUR[0] = 'SQLParserTokenizeTest'
    check(CACHE[q][1] == exp, '%s %s %s' % (q, CACHE[q][1], exp))
print(len(codes), 'unit tests of', len(tests), 'evaluated,', N[0], 'assertions checked,', N[1], 'failed')
