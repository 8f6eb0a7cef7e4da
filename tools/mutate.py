#!/usr/bin/env python3
"""Apply wrong-program edits to a scratch copy of the Lean project and record which theorems stop building.

usage: mutate.py MUTATIONS.json   (list of {file, def, old, new, edit, claim})
The scratch copy is /root/mut/lean; one line per mutation is appended to /verif/seeded/LOG.jsonl."""
import json, os, re, signal, subprocess, sys, threading
SRC, DST, LOG = '/verif/lean', '/root/mut/lean', '/verif/seeded/LOG.jsonl'

def sync():
    os.makedirs(DST, exist_ok=True)
    subprocess.run(['rsync', '-a', '--delete', SRC + '/', DST + '/'], check=True) if subprocess.run(['which', 'rsync'], capture_output=True).returncode == 0 \
        else subprocess.run(f'rm -rf {DST} && cp -a {SRC} {DST}', shell=True, check=True)

def decls(path):
    out = []
    for i, l in enumerate(open(path), 1):
        m = re.match(r'(?:private |@\[[^\]]*\] |noncomputable )*(theorem|lemma|def|example|instance|abbrev|structure)\s+([^\s:({\[]+)?', l)
        if m: out.append((i, m.group(1), m.group(2) or 'example'))
    return out

def enclosing(path, line):
    best = None
    for i, k, n in decls(path):
        if i <= line: best = (k, n)
    return best

def build(grace=45):
    """the output of the build, which is cut off some time after the first error outside the tests"""
    q = subprocess.Popen(['lake', 'build', 'Verif'], cwd=DST, stdout=subprocess.PIPE, stderr=subprocess.STDOUT, text=True, start_new_session=True)
    def stop():
        if q.poll() is None: os.killpg(q.pid, signal.SIGTERM)
    timer, out = None, []
    for line in q.stdout:
        out.append(line)
        if timer is None and re.match(r'error: Verif/(?!Test)', line):
            timer = threading.Timer(grace, stop)
            timer.start()
    q.wait()
    if timer: timer.cancel()
    return ''.join(out)

def run(m):
    p = os.path.join(DST, m['file'])
    s = open(p).read()
    if s.count(m['old']) < 1:
        print('NOT FOUND', m['edit']); return None
    n = m.get('nth', 0)
    # occurrences outside comments
    spans = [(c.start(), c.end()) for c in re.finditer(r'/-.*?-/|--[^\n]*', s, re.S)]
    occ = [o.start() for o in re.finditer(re.escape(m['old']), s) if not any(a <= o.start() < b for a, b in spans)]
    d = m['def'].split('.')[-1]
    at = re.search(r'def ' + re.escape(d) + r'\b', s)
    if at: occ = [o for o in occ if o >= at.start()]
    if len(occ) <= n:
        print('NOT FOUND', m['edit']); return None
    t = s[:occ[n]] + m['new'] + s[occ[n] + len(m['old']):]
    open(p, 'w').write(t)
    try:
        out = build()
    finally:
        open(p, 'w').write(s)
    failed, bad = [], []
    for f, l in re.findall(r'error: (Verif/[\w/]+\.lean):(\d+):', out):
        e = enclosing(os.path.join(DST, f), int(l))
        if e and (f, e[1]) not in failed: failed.append((f, e[1]))
    mods = re.findall(r'^✖ \[\d+/\d+\] Building (\S+)', out, re.M)
    modelbroken = any(f.startswith('Verif/Model') for f, _ in failed)
    return {'failed': [f'{f.split("/",1)[1][:-5]}: {n}' for f, n in failed], 'modules': mods, 'model_broken': modelbroken}

def main():
    muts = json.load(open(sys.argv[1]))
    sync()
    for m in muts:
        r = run(m)
        if r is None: continue
        status = 'MODEL-BROKEN' if r['model_broken'] else ('SURVIVED' if not r['failed'] else 'caught')
        print(status, '|', m['def'], '|', m['edit'], '|', r['failed'][:6], flush=True)
        if r['model_broken']: continue
        rec = {'definition': m['def'], 'edit': m['edit'], 'claim': m['claim'], 'failed': r['failed'], 'tightened': m.get('tightened', [])}
        if not r['failed']: rec['survived'] = True
        open(LOG, 'a').write(json.dumps(rec) + '\n')

main()
