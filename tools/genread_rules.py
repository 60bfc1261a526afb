# executed by genread.py: the step for every rule
W = {}
def w(r, *ws, cases=None, val=None, ev=None): W[r] = (list(ws), cases, val)
def ws(txt):
    for line in txt.strip().split('\n'):
        r, rest = line.split(None, 1)
        cases = None
        if ' / ' in rest: rest, cases = rest.split(' / ')
        w(int(r), *[x.strip() for x in rest.split(';')], cases=cases)
ws('''
3 .one x1
4 .snoc x1 x3
5 .stmt x1 x2
6 .stmt x1 x2
7 x1
8 x1
9 x1
10 .query x1
11 x1
12 x1
13 x1
14 x1
15 x1
16 x1
17 x1
18 x1
19 x1
20 .some x4
21 .none
22 .one x1
23 .snoc x1 x3
24 .name x1
25 .args x1 x3
26 .transaction .begin x2 / x2
27 .transaction .rollback x2 / x2
28 .transaction .commit x2 / x2
29 true
30 false
31 .prepare x2 x4
32 x1
33 .execute x2
34 .executeArgs x2 x4
35 .importFile x3 f3 h3 x5 x7
36 .copyFrom x2 x4 x5 x6
39 .opts true x3 h3
40 .opts false x2 h2
41 .none
50 .copyTo x2 x4 x5
51 .copyQuery x2 x4 x5
52 .showTables
53 .showColumns x3
54 .describe x2
57 .createAs x3 x4 x6
58 .createIndex x3 x4 x6 x8
59 .createView x3 x4 x5 x7
100 .primaryKey x4
101 .unique x3
102 .foreignKey x4 x6 y6
104 .dropTable x3 x4
105 .dropView x3 x4
106 .deallocate x3
107 .dropIndex x3 x4
108 true
109 false
110 .alterDrop x3 x4 i5 x5
111 i1; x1
112 x3; x4
113 .delete x3 x4
114 .truncate x2
115 .insertValues x3 x4 x7
116 .insertQuery x3 x4 x5
119 .update x2 x4 x5
120 .one x1 y1
121 .snoc x1 x3 y3
122 x1; x3
123 .paren x1 x2
124 .plain x1 x2
125 .set x1 x2 x3 x4 x5 x6
126 .paren x1
127 x1
128 .clause x1
129 .set x1 x2 x3
130 .one x2
131 .more x2
132 .plain x1 x2 x3 x4
133 .set x1 x2 x3 x4 x5 x6
134 ⟨x1, x2⟩ / x2
135 .union
136 .intersect
137 .except
138 true
139 false
140 .mk x2 x3 x4 x5 x6 x7 / x6
141 true
142 false
143 x1
144 x1
145 .none
147 .some x2
148 .none
149 .by x3 x4 / x4
150 .none
151 .some x2
152 .none
153 .by x3
154 .none
155 .one x1 d1 n1
156 .snoc x1 x3 d3 n3
157 x1; x2; x3
158 .asc
159 .desc
160 .none
161 .none
163 some x2
164 none
165 .limit x2
166 .offset x2
167 .both x2 x4
168 .all
169 .allOffset x4
170 .none
171 .one x1 a1
172 .snoc x1 x3 a3
173 some x1
174 none
175 .one x1
176 .snoc x1 x3
177 .plain x1
178 .cast x3 x5
180 .negNum x2
181 .negInterval x2
182 x1; x2
227 .one x2 x4
228 .snoc x1 x3 x5
242 .over x3 x4 x5
243 .none
244 .by x3
245 .none
246 .start x1 x2
247 .between x1 x3 x5
248 .none
249 .range
250 .rows
251 .groups
252 .unboundedPreceding
253 .preceding x1
254 .unboundedFollowing
255 .following x1
256 .currentRow
259 .second
260 .minute
261 .hour
262 .day
263 .month
264 .year
265 .second
266 .minute
267 .hour
268 .day
269 .month
270 .year
271 x1; false
272 x1; true
287 .str x1
288 .bool true
289 .bool false
290 .float x1
291 .int x1
292 x1
293 .null
295 .short x1 x2 p2 / p2
301 .base x1
302 x1
303 x1
304 .query x2 x4
305 .one x1
306 .snoc x1 x3
307 .name x1 x2
308 x1
311 some x1
312 none
313 .plain x1
314 .cols x2 x4
315 x1
316 .plain .none
317 .as x2
318 .bare x1
319 x1
320 .none
321 .some x1
322 .none
323 .one x1
324 .snoc x1 x2
325 ⟨x2, none, x3⟩
326 ⟨x2, some x4, x5⟩
327 .update
328 .noKeyUpdate
329 .share
330 .keyShare
331 .skipLocked
332 .nowait
333 .none
334 x1
335 .none
336 .some x2
337 .one x1 y1
338 .snoc x1 x3 y3
339 x1; x3
340 .natural x1 x4
341 .on x1 x2 x4 x6
342 .using x1 x2 x4 x7
343 .inner
344 .left true
345 .left false
346 .right true
347 .right false
348 .full true
349 .outer
350 .full false
351 .cross
352 .none
353 x1
354 true
355 false
''')
def kid(i, X):
    """pattern and statement for kid i; returns (obtain line, name of the words fact)"""
    v = 'v%d' % i
    p = prop(X).replace('t.ws k', 'c%d.ws _' % i).replace('OpE {x} t', '')
    p = re.sub(r'(?<![A-Za-z_.])v = ', 'v%d = ' % i, p)
    p = re.sub(r'tup4 v$', 'tup4 v%d' % i, p)
    p = re.sub(r'(OpE|ExE) x t\b', r'\1 x c%d' % i, p)
    if X.startswith('T.'):
        if X in ('T.IDENTIFIER', 'T.STRING', 'T.INTVAL'): return 'x%d, w%d, rfl' % (i, i), p
        if X == 'T.FLOATVAL': return 'x%d, w%d' % (i, i), p
        if X == 'T.QMARK': return None, p
        return 'w%d, rfl' % i, p
    d = NT[X]
    if d[0] == 'cond': return None, p
    bs, _, ex = d
    names = ['%s%d' % (b, i) for b, _ in bs] + ['w%d' % i]
    js = 0
    for x in ex:
        if re.match(r'v = ', x): names.append('rfl')
        else:
            names.append('h%d%s' % (i, '' if js == 0 else '_%d' % js)); js += 1
    return ', '.join(names), p
def head(r, e='e', hs='hs'):
    lhs_, rhs_ = R[r]
    out = 'theorem r%d : RuleOK %d := by\n  intro _ cs k vs s v s\' b e hp hi he hs hE\n' % (r, r)
    pat = ', '.join(['c%d, _, v%d, _, rfl, rfl, i%d' % (i, i, i) for i in range(1, len(rhs_) + 1)] + ['rfl, rfl'])
    out += '  obtain ⟨%s⟩ : IsL [%s] cs k vs %s := hi %s %s\n' % (pat, ', '.join(rhs_), e, e, hs)
    for i, X in enumerate(rhs_, 1):
        a, p = kid(i, X)
        if a is None:
            out += '  have w%d : %s := i%d\n' % (i, p.replace('e = false', e + ' = false'), i)
        elif ',' not in a: out += '  have %s : %s := i%d\n' % (a, p, i)
        else: out += '  obtain ⟨%s⟩ : %s := i%d\n' % (a, p, i)
    return out
def words(r, cases=None):
    n = len(R[r][1])
    return 'by rw [ws_node]; %ssimp only [wsL%s] <;> first | rfl | simp [havingW, Group.words, cat]' % ('cases %s <;> ' % cases if cases else '', ''.join(', w%d' % i for i in range(1, n + 1)))
def goal(r):
    lhs_, rhs_ = R[r]
    p = prop(lhs_).replace('t.ws k', '(Tree.node %d [%s]).ws k' % (r, ', '.join('c%d' % i for i in range(1, len(rhs_) + 1))))
    p = re.sub(r'(OpE|ExE) x t\b', r'\1 x (Tree.node %d [%s])' % (r, ', '.join('c%d' % i for i in range(1, len(rhs_) + 1))), p)
    return p
TH = {}
TH[0] = 'theorem r0 : RuleOK 0 := fun h => absurd h (by omega)\n'
TH[1] = 'theorem r1 : RuleOK 1 := fun h => absurd h (by omega)\n'
for r in (2,): TH[r] = 'theorem r%d : RuleOK %d := fun _ _ _ _ _ _ _ _ _ _ _ _ _ _ => trivial\n' % (r, r)
for r, (wits, cases, val) in W.items():
    TH[r] = head(r) + '  show %s\n  exact ⟨%s, %s⟩\n' % (goal(r), ', '.join(wits), words(r, cases))
exec(open('/verif/tools/genread_custom.py').read())
missing = [r for r in range(358) if r not in TH]
print('missing', missing)
PRE = '''import %s
/-! GENERATED by tools/genread.py. The words of a tree, rule by rule. Proof-internal. -/
set_option linter.all false
set_option maxRecDepth 20000
namespace Verif.Sql.Read
open Verif.Lex Verif.LR Verif.Sem

'''
parts = [(0, 120), (120, 240), (240, 358)]
for j, (a, b) in enumerate(parts, 1):
    t = PRE % 'Verif.Sql.ReadTools'
    for r in range(a, b):
        if r in TH: t += TH[r] + '\n'
    open('/verif/lean/Verif/Sql/ReadRules%d.lean' % j, 'w').write(t + 'end Verif.Sql.Read\n')

t = '''import Verif.Sql.ReadRules1
import Verif.Sql.ReadRules2
import Verif.Sql.ReadRules3
/-! GENERATED by tools/genread.py. Every rule. Proof-internal. -/
set_option linter.all false
namespace Verif.Sql.Read
open Verif.Lex Verif.LR Verif.Sem

theorem u0 : ∀ r, r < 0 → RuleOK r := fun _ h => absurd h (by omega)
'''
for r in range(358): t += 'theorem u%d : ∀ r, r < %d → RuleOK r := lt_step u%d r%d\n' % (r + 1, r + 1, r, r)
open('/verif/lean/Verif/Sql/ReadAll.lean', 'w').write(t + '\nend Verif.Sql.Read\n')
