#!/usr/bin/env python3
"""Mutation testing of the model, in a scratch copy (/tmp/mut/lean).
usage: mutate.py specs.json out.jsonl
A spec: {"file", "old", "new", "def", "edit", "claim", "nth" (optional)}.
Rebuilds, lists the declarations that fail (enclosing declaration of each error)."""
import json, subprocess, sys, re, os, shutil, threading, signal
SC = '/tmp/mut/lean'
def decl(path, line):
    name = None
    for i, l in enumerate(open(path)):
        m = re.match(r'\s*(?:@\[[^\]]*\]\s*)?(?:private |protected |noncomputable )*(theorem|def|example|lemma|abbrev|instance|inductive)\s*([^\s:({\[]*)', l)
        if m: name = m.group(1) + ' ' + m.group(2) if m.group(1) == 'example' else m.group(2)
        if i + 1 >= line: break
    return name
GRACE = 200  # seconds to go on building after the first error
def build():
    p = subprocess.Popen(['nice', 'lake', 'build'], cwd=SC, stdout=subprocess.PIPE, stderr=subprocess.STDOUT, text=True, start_new_session=True)
    lines, killer = [], None
    for l in p.stdout:
        lines.append(l)
        if killer is None and re.search(r'error: (\S+?\.lean):(\d+):\d+', l):
            killer = threading.Timer(GRACE, lambda: os.killpg(p.pid, signal.SIGKILL))
            killer.start()
    p.wait()
    if killer: killer.cancel()
    out = ''.join(lines)
    fails = []
    for m in re.finditer(r'error: (\S+?\.lean):(\d+):\d+', out):
        f = os.path.join(SC, m.group(1)) if not m.group(1).startswith('/') else m.group(1)
        d = f"{os.path.relpath(f, SC)}:{decl(f, int(m.group(2)))}"
        if d not in fails: fails.append(d)
    return p.returncode, fails, out
specs = json.load(open(sys.argv[1]))
for s in specs:
    path = os.path.join(SC, s['file'])
    orig = open(path).read()
    if orig.count(s['old']) < 1:
        print('NOT FOUND', s['old']); continue
    if 'nth' in s:
        parts = orig.split(s['old']); k = s['nth']
        new = s['old'].join(parts[:k+1]) + s['new'] + s['old'].join(parts[k+1:])
    else:
        new = orig.replace(s['old'], s['new'], 1)
    open(path, 'w').write(new)
    try:
        rc, fails, out = build()
    finally:
        open(path, 'w').write(orig)
    rec = {"definition": s['def'], "edit": s['edit'], "claim": s['claim'], "failed": fails, "survived": rc == 0, "tightened": []}
    print(json.dumps(rec), flush=True)
    open(sys.argv[2], 'a').write(json.dumps(rec) + '\n')
