"""Test the theorems against wrong programs.

usage: mutate.py MUTATIONS.py [name ...]

MUTATIONS.py defines `muts`, a list of (name, file, definition, old, new, claim). Each edit is applied to a
scratch copy of lean/ outside /verif, which is then built; the theorems whose proofs fail, and the modules
that could not be built because of that, are added to seeded/LOG.jsonl.
"""
import json, os, re, runpy, shutil, signal, subprocess, sys, time

SRC = os.environ.get('MUT_SRC', '/verif/lean')
TMP = os.environ.get('MUT_DIR', '/tmp/mut')
LOG = '/verif/seeded/LOG.jsonl'

DECL = re.compile(r'^(?:@\[[^\]]*\]\s*)?(?:private |noncomputable |protected )*(theorem|def|example|instance|structure|lemma)\b\s*([^\s:({\[]*)')


def decl_at(path, line):
    lines = open(path).read().split('\n')
    for i in range(min(line, len(lines)) - 1, -1, -1):
        m = DECL.match(lines[i])
        if m:
            return m.group(2) or 'example at line %d' % (i + 1)
    return '?'


def build():
    """Build the copy; once something has failed, go on for fifty seconds only."""
    log = TMP + '.log'
    with open(log, 'w') as f:
        p = subprocess.Popen(['lake', 'build'], cwd=TMP, stdout=f, stderr=subprocess.STDOUT, start_new_session=True)
    start, first = time.time(), None
    while p.poll() is None:
        time.sleep(2)
        if first is None and re.search(r'^error: Verif/', open(log).read(), re.M):
            first = time.time()
        if time.time() - start > 3000 or (first and time.time() - first > 50):
            os.killpg(p.pid, signal.SIGKILL)
            p.wait()
    return p.returncode == 0, open(log).read()


def run(name, file, definition, old, new, claim):
    shutil.rmtree(TMP, ignore_errors=True)
    subprocess.run(['cp', '-a', SRC, TMP], check=True)
    p = os.path.join(TMP, 'Verif', file)
    s = open(p).read()
    if s.count(old) != 1:
        print('SKIP %s: %d occurrences' % (name, s.count(old)))
        return
    open(p, 'w').write(s.replace(old, new))
    survived, out = build()
    failed = []
    for m in re.finditer(r'^error: (Verif/[\w/]+\.lean):(\d+):', out, re.M):
        d = decl_at(os.path.join(TMP, m.group(1)), int(m.group(2)))
        e = '%s (%s)' % (d, m.group(1))
        if e not in failed:
            failed.append(e)
    broken = set(m[:-5].replace('/', '.') for m in re.findall(r'^error: (Verif/[\w/]+\.lean):', out, re.M))
    blocked = sorted(dependents(broken) - broken)
    rec = {'name': name, 'definition': definition, 'edit': '%s -> %s' % (' '.join(old.split()), ' '.join(new.split())),
           'claim': claim, 'failed': failed, 'not_rebuilt': blocked, 'survived': survived, 'tightened': []}
    with open(LOG, 'a') as f:
        f.write(json.dumps(rec) + '\n')
    print(name, 'SURVIVED' if survived else 'caught', failed[:4], flush=True)


def dependents(mods):
    deps = {}
    for root, _, files in os.walk(SRC + '/Verif'):
        for f in files:
            if f.endswith('.lean'):
                rel = os.path.relpath(os.path.join(root, f), SRC)[:-5].replace('/', '.')
                deps[rel] = set(re.findall(r'^import (Verif[\w.]*)', open(os.path.join(root, f)).read(), re.M))
    bad = set(mods)
    while True:
        more = {m for m, d in deps.items() if m not in bad and d & bad}
        if not more:
            return bad
        bad |= more


if __name__ == '__main__':
    muts = runpy.run_path(sys.argv[1])['muts']
    for m in muts:
        if len(sys.argv) == 2 or m[0] in sys.argv[2:]:
            run(*m)
