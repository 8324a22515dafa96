#!/usr/bin/env python3
"""mutate.py FILE.json : list of {file, old, new, definition, edit, claim}. Runs each edit in /tmp/mut and prints the
theorems/examples that fail; appends to seeded/LOG.jsonl."""
import json, sys, os, re, subprocess, shutil
root = '/verif'
scratch = '/tmp/mut'
os.makedirs(scratch, exist_ok=True)
def sync():
    subprocess.run(['rsync', '-a', '--delete', root + '/lean/', scratch + '/lean/'], check=True) if shutil.which('rsync') else subprocess.run(f'rm -rf {scratch}/lean && cp -a {root}/lean {scratch}/lean', shell=True, check=True)
def names(out):
    res = []
    for m in re.finditer(r'error: (Verif/\S+\.lean):(\d+):\d+', out):
        f, ln = m.group(1), int(m.group(2))
        lines = open(f'{scratch}/lean/{f}').read().split('\n')
        name = None
        for i in range(min(ln, len(lines)) - 1, -1, -1):
            mm = re.match(r'(?:@\[.*\] )?(?:private |protected |noncomputable )*(theorem|lemma|example|def|instance)\b\s*(\S*)', lines[i])
            if mm:
                name = mm.group(2) if mm.group(1) != 'example' else f'example@{f}:{i+1}'
                break
        name = name or f
        if name not in res: res.append(name)
    return res
muts = json.load(open(sys.argv[1]))
for m in muts:
    sync()
    p = f"{scratch}/lean/{m['file']}"
    s = open(p).read()
    if s.count(m['old']) < 1: print('!! pattern not found', m['edit']); continue
    s = s.replace(m['old'], m['new'], 1)
    open(p, 'w').write(s)
    r = subprocess.run('lake build --no-ansi', shell=True, cwd=scratch + '/lean', capture_output=True, text=True)
    out = r.stdout + r.stderr
    failed = names(out)
    print(('KILLED ' if r.returncode else 'SURVIVED ') + m['edit'], '->', failed[:12])
    if '--dry' in sys.argv: continue
    with open(root + '/seeded/LOG.jsonl', 'a') as f:
        f.write(json.dumps({'definition': m['definition'], 'edit': m['edit'], 'claim': m['claim'], 'failed': failed, 'survived': r.returncode == 0, 'tightened': m.get('tightened', [])}, ensure_ascii=False) + '\n')
