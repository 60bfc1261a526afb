#!/usr/bin/env python3
"""Evaluates the model on the query files of /repo/test/queries and compares the verdicts with the expected ones.

A test of the model, not a proof. Writes a scratch Lean file outside the project and interprets it."""
import glob, os, subprocess, sys
cases = []
for f in ('queries-good.sql', 'queries-bad.sql'):
    for l in open('/repo/test/queries/' + f).read().split('\n'):
        if l == '' or l[0] == '#': continue
        cases.append((l[1:], False) if l[0] == '!' else (l, True))
for f in sorted(glob.glob('/repo/test/queries/tpc-h-*.sql')):
    cases.append((open(f).read(), True))
concat = ''
for f in sorted(glob.glob('/repo/test/queries/tpc-h-*.sql')):
    concat += open(f).read()
    if concat[-1] != ';': concat += ';'
cases.append((concat, True))
out = ['import Verif.Api.Eval', 'open Verif Verif.Lex Verif.LR Verif.Sem Verif.Api',
       'def go (s : List UInt8) : String := match evalParse heap 64 (s.length + 5) s ⟨[], false, none, 0, 0, []⟩ with',
       '  | none => "lexer-fuel" | some none => "undefined"',
       '  | some (some o) => s!"{o.res.isValid} {o.res.stmts.length} {o.leaked.length} {o.res.errLine} {o.res.errCol} " ++ (match o.res.errMsg with | none => "" | some m => m.2.foldl (fun a c => a.push (Char.ofNat c)) "")' ]
out += ['def main : IO Unit := do',
        '  let b ← IO.FS.readBinFile "/tmp/val/cases"',
        '  let mut cur : List UInt8 := []',
        '  for c in b.toList do',
        '    if c == 0 then IO.println (go cur.reverse); cur := [] else cur := c :: cur']
os.makedirs('/tmp/val', exist_ok=True)
open('/tmp/val/cases', 'wb').write(b''.join(q.encode() + b'\0' for q, _ in cases))
open('/tmp/val/V.lean', 'w').write('\n'.join(out) + '\n')
r = subprocess.run(['lake', 'env', 'lean', '--run', '/tmp/val/V.lean'], cwd='/verif/lean', capture_output=True, text=True)
print(r.stderr[:2000])
ls = r.stdout.split('\n')[:-1]
bad = 0
print(len(ls), len(cases))
for (q, e), l in zip(cases, ls):
    ok = l.split(' ')[0] == ('true' if e else 'false')
    if not ok: bad += 1
    if not ok or '-v' in sys.argv: print('ok ' if ok else 'BAD', l, '|', q[:100].replace('\n', ' '))
print(len(cases), 'queries,', bad, 'verdicts differ')
