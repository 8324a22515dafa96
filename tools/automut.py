#!/usr/bin/env python3
"""automut.py SEED COUNT OUT [FILES...] : random syntactic edits of definitions in lean/Verif/Model, built in /tmp/amut; stops at the first
failing theorem.  Survivors are printed with their place."""
import re, sys, os, random, subprocess, signal, json
seed, count, outp = int(sys.argv[1]), int(sys.argv[2]), sys.argv[3]
files = sys.argv[4:]
root, scratch = '/verif/lean', '/tmp/amut'
mdir = root + '/Verif/Model'
files = files or sorted(os.listdir(mdir))
RULES = [
 (r'(?<![\w.])(\d+)(?![\w.])', lambda m: str(int(m.group(1)) + 1)),
 (r'(?<![\w.])([1-9]\d*)(?![\w.])', lambda m: str(int(m.group(1)) - 1)),
 (r' < ', lambda m: ' ≤ '), (r' ≤ ', lambda m: ' < '), (r' > ', lambda m: ' ≥ '), (r' ≥ ', lambda m: ' > '),
 (r' \+ ', lambda m: ' - '), (r' - ', lambda m: ' + '), (r' \* ', lambda m: ' + '),
 (r' && ', lambda m: ' || '), (r' \|\| ', lambda m: ' && '), (r' ∧ ', lambda m: ' ∨ '), (r' ∨ ', lambda m: ' ∧ '),
 (r'\btrue\b', lambda m: 'false'), (r'\bfalse\b', lambda m: 'true'),
 (r'\.1\b', lambda m: '.2'), (r'\.2\b', lambda m: '.1'), (r'\.x\b', lambda m: '.y'), (r'\.y\b', lambda m: '.x'),
 (r'\.ra\b', lambda m: '.dec'), (r'\.dec\b', lambda m: '.ra'), (r'\bsin\b', lambda m: 'cos'), (r'\bcos\b', lambda m: 'sin'),
 (r' = ', lambda m: ' ≠ '), (r' ≠ ', lambda m: ' = '), (r'!', lambda m: ''),
 (r' ++ ', lambda m: None),
]
def code_spans(s):
    """positions of code: without comments and strings"""
    mask = [True] * len(s)
    for m in re.finditer(r'/-.*?-/|--[^\n]*|"[^"\n]*"', s, re.S):
        for i in range(m.start(), m.end()): mask[i] = False
    # only bodies of defs
    body = [False] * len(s)
    for m in re.finditer(r'^(?:noncomputable )?def .*?(?=^\S|\Z)', s, re.S | re.M):
        t = m.group(0)
        k = t.find(':=')
        k2 = t.find('\n  | ')
        st = min(x for x in (k if k >= 0 else len(t), k2 if k2 >= 0 else len(t)))
        for i in range(m.start() + st, m.end()): body[i] = True
    return [a and b for a, b in zip(mask, body)]
cands = []
for f in files:
    s = open(f'{mdir}/{f}').read()
    ok = code_spans(s)
    for pat, rep in RULES:
        if pat == r' ++ ': continue
        for m in re.finditer(pat, s):
            if all(ok[m.start():m.end()]):
                if ' = ' == m.group(0):
                    line = s[s.rfind('\n', 0, m.start()) + 1: s.find('\n', m.end())]
                    if not re.search(r'\bif\b|decide|&&|\|\||∧', line): continue
                r = rep(m)
                if r is None: continue
                cands.append((f, m.start(), m.end(), m.group(0), r))
random.seed(seed)
random.shuffle(cands)
print(len(cands), 'candidates', flush=True)
def defname(s, pos):
    ms = list(re.finditer(r'^(?:noncomputable )?def (\S+)', s[:pos], re.M))
    return ms[-1].group(1) if ms else '?'
done = 0
for f, a, b, old, new in cands:
    if done >= count: break
    subprocess.run(f'rm -rf {scratch} && cp -a {root} {scratch}', shell=True, check=True)
    s = open(f'{mdir}/{f}').read()
    if s[a:b] != old: continue
    t = s[:a] + new + s[b:]
    open(f'{scratch}/Verif/Model/{f}', 'w').write(t)
    line = s[s.rfind('\n', 0, a) + 1: s.find('\n', b)].strip()
    tline = t[t.rfind('\n', 0, a) + 1: t.find('\n', a + len(new))].strip()
    r = subprocess.run(f'lake build --no-ansi Verif.Model.{f[:-5]}', shell=True, cwd=scratch, capture_output=True, text=True)
    if r.returncode != 0: continue   # does not typecheck
    p = subprocess.Popen('LEAN_NUM_THREADS=2 nice -n 10 lake build --no-ansi', shell=True, cwd=scratch, stdout=subprocess.PIPE, stderr=subprocess.STDOUT, text=True, preexec_fn=os.setsid)
    failed = None
    for l in p.stdout:
        m = re.search(r'error: (Verif/\S+\.lean):(\d+):\d+', l)
        if m:
            L = open(f'{scratch}/{m.group(1)}').read().split('\n')
            for i in range(min(int(m.group(2)), len(L)) - 1, -1, -1):
                mm = re.match(r'(?:@\[.*\] )?(?:private |protected |noncomputable )*(theorem|lemma|example|def|instance)\b\s*(\S*)', L[i])
                if mm:
                    failed = mm.group(2) if mm.group(1) != 'example' else f'example@{m.group(1)}:{i+1}'
                    break
            failed = failed or m.group(1)
            os.killpg(p.pid, signal.SIGTERM)
            break
    p.wait()
    done += 1
    d = {'definition': f'{f[:-5]}.{defname(s, a)}', 'edit': f'{line}  ~>  {tline}', 'failed': [failed] if failed else [], 'survived': failed is None and p.returncode == 0, 'rc': p.returncode}
    print(('SURVIVED ' if d['survived'] else 'killed ') + d['definition'] + ' | ' + d['edit'] + ' | ' + str(failed), flush=True)
    with open(outp, 'a') as g: g.write(json.dumps(d, ensure_ascii=False) + '\n')
