#!/usr/bin/env python3
"""Seeded-bug testing.  For each mutation (file, old, new, claim, text) of a module listed in the given python file: apply it to a
scratch copy of lean/ (outside /verif), rebuild, collect the declarations that fail and append a line to seeded/LOG.jsonl.
usage: seed.py mutations.py [start]"""
import sys, os, re, json, subprocess, shutil, glob
V = os.path.join(os.path.dirname(os.path.abspath(__file__)), '..')
S = '/tmp/scratch/lean'
def sync():
    os.makedirs(S, exist_ok=True)
    subprocess.run(['rsync', '-a', '--delete', V + '/lean/', S + '/']) if shutil.which('rsync') else (shutil.rmtree(S), shutil.copytree(V + '/lean', S, symlinks=True))
def decl(path, line):
    name = '?'
    for i, l in enumerate(open(path), 1):
        if i > line: break
        m = re.match(r'(?:@\[.*?\]\s*)?(?:private |protected |noncomputable )*(theorem|def|instance|example|lemma|abbrev)\s*([^\s:({\[]*)', l)
        if m: name = m.group(2) or f'{m.group(1)}@{os.path.basename(path)}:{i}'
    return name
def build(grace=None):
    """run lake build; with `grace` (seconds) stop that long after the first error"""
    import time, threading
    r = subprocess.Popen(['lake', 'build'], cwd=S, stdout=subprocess.PIPE, stderr=subprocess.STDOUT, text=True, start_new_session=True)
    fails, killed = [], []
    def kill():
        killed.append(1)
        try: os.killpg(r.pid, 15)
        except ProcessLookupError: pass
    timer = None
    for l in r.stdout:
        m = re.match(r'error: (Verif\S*\.lean):(\d+):', l)
        if m:
            d = decl(S + '/' + m.group(1), int(m.group(2)))
            if (m.group(1), d) not in fails: fails.append((m.group(1), d))
            if grace is not None and timer is None:
                timer = threading.Timer(grace, kill); timer.start()
    r.wait()
    if timer: timer.cancel()
    return (1 if killed else r.returncode), fails
def imports():
    g = {}
    for p in glob.glob(S + '/Verif/**/*.lean', recursive=True):
        mod = p[len(S) + 1:-5].replace('/', '.')
        g[mod] = re.findall(r'^import (Verif\S*)', open(p).read(), re.M)
    return g
GRACE = float(os.environ['GRACE']) if 'GRACE' in os.environ else None
def main():
    ns = {}
    exec(open(sys.argv[1]).read(), ns)
    muts = ns['MUT'][int(sys.argv[2]) if len(sys.argv) > 2 else 0:]
    man = {c['property']: c['theorems'] for c in json.load(open(V + '/MANIFEST.json'))['claims']}
    sync()
    for (f, df, old, new, claim, text) in muts:
        # `f` may name several files, 'A.lean+B.lean': the same edit is made in each (a function and its instrumented copy)
        fs = f.split('+')
        srcs = {q: open(S + '/Verif/' + q).read() for q in fs}
        if any(t.count(old) < 1 for t in srcs.values()):
            print('NOT FOUND', f, old); continue
        for q, t in srcs.items(): open(S + '/Verif/' + q, 'w').write(t.replace(old, new, 1))
        def restore():
            for q, t in srcs.items(): open(S + '/Verif/' + q, 'w').write(t)
        rc, fl = build(GRACE)
        fails = [d for _, d in fl]
        thr = fails
        if rc and all(x[6:] in fs for x, _ in fl):
            print('INVALID', f, df, fails[:3], text[:150], flush=True)
            restore(); continue
        line = {'definition': f'Verif/{f} {df}', 'edit': f'{old.strip()}  ->  {new.strip()}', 'claim': f'{claim}: {text}',
                'theorems_failed': thr, 'detected': rc != 0, 'theorems_tightened': [],
                'note': ('the theorems of ' + claim + ' (' + ', '.join(t.split('.')[-1] for t in man.get(claim.split(',')[0], [])[:6]) + ') rest on the failing declarations and no longer build') if rc else 'SURVIVED'}
        open(V + '/seeded/LOG.jsonl', 'a').write(json.dumps(line) + '\n')
        print('DETECTED' if rc else 'SURVIVED', f, df, '|', thr[:4], flush=True)
        restore()
main()
