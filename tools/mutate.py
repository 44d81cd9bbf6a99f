#!/usr/bin/env python3
"""Edits the model in a scratch copy, rebuilds it and records which theorems fail.

usage: mutate.py MUTATIONS.json

Each entry: {"file", "definition", "old", "new", "edit", "claim", "breaks": ["Cnn", ...]}.
Results are appended to /verif/seeded/LOG.jsonl. Theorems of the failing modules are found by position, property theorems
that depend on a failed theorem are found through the dependency graph of the unchanged build.
"""
import json, os, re, subprocess, sys, tempfile, shutil, time

SRC = os.environ.get('SRC', '/verif/lean')
MUT = os.environ.get('MUT', '/tmp/mut')
LOG = '/verif/seeded/LOG.jsonl'

DEPS = r'''
import Lean
import Verif
open Lean
def main' : CoreM Unit := do
  let env ← getEnv
  let h ← IO.FS.Handle.mk "%s" .write
  for (n, c) in env.constants.map₁.toList do
    let some m := env.getModuleIdxFor? n | continue
    let mn := env.header.moduleNames[m.toNat]!
    if (`Verif).isPrefixOf mn then
      let used := (c.type.getUsedConstants ++ (c.value? (allowOpaque := true)).elim #[] (·.getUsedConstants)).filter fun u =>
        match env.getModuleIdxFor? u with
        | some i => (`Verif).isPrefixOf env.header.moduleNames[i.toNat]!
        | none => false
      h.putStrLn (Json.compress (Json.mkObj [("n", toString n), ("m", toString mn), ("u", toJson (used.map toString))]))
#eval main'
'''

def sh(cmd, cwd):
    return subprocess.run(cmd, cwd=cwd, shell=True, capture_output=True, text=True)

def deps():
    r = sh('lake build 2>&1', SRC)
    if r.returncode: print(r.stdout); sys.exit(1)
    with tempfile.NamedTemporaryFile('w', suffix='.lean', delete=False) as f:
        f.write(DEPS % '/tmp/deps.jsonl')
    r = sh(f'lake env lean {f.name}', SRC)
    if r.returncode: print(r.stdout, r.stderr); sys.exit(1)
    g = {}
    for l in open('/tmp/deps.jsonl'):
        d = json.loads(l); g[d['n']] = d['u']
    rev = {}
    for n, us in g.items():
        for u in us: rev.setdefault(u, set()).add(n)
    return g, rev

def closure(rev, names):
    todo, seen = list(names), set(names)
    while todo:
        x = todo.pop()
        for y in rev.get(x, ()):
            if y not in seen: seen.add(y); todo.append(y)
    return seen

def enclosing(path, line):
    ls = open(path).read().split('\n')
    for i in range(min(line, len(ls)) - 1, -1, -1):
        m = re.match(r'(?:@\[[^\]]*\]\s*)?(?:private |protected )?(theorem|lemma|def|instance|example|inductive|abbrev)\s*(\S*)', ls[i])
        if m: return m.group(1), m.group(2)
    return '?', '?'

DECL = re.compile(r'(theorem|lemma|def|example|end|abbrev|instance|structure|inductive|variable|section|namespace|open|mutual|private|protected|deriving)\b|/-|@\[')

def drop_example(path, line):
    """removes the example that contains this line, so that the modules behind it are checked as well"""
    ls = open(path).read().split('\n')
    i = min(line, len(ls)) - 1
    while i >= 0 and not ls[i].startswith('example'): i -= 1
    if i < 0: return False
    j = i + 1
    while j < len(ls) and not DECL.match(ls[j]): j += 1
    k = i - 1
    if k >= 0 and ls[k].rstrip().endswith('-/'):
        while k >= 0 and not ls[k].startswith('/-'): k -= 1
        if ls[k].startswith('/--'): ls[k] = '/-' + ls[k][3:]
    for n in range(i, j): ls[n] = ''
    open(path, 'w').write('\n'.join(ls))
    return True

def main():
    muts = json.load(open(sys.argv[1]))
    g, rev = deps()
    sh(f'rm -rf {MUT} && cp -a {SRC} {MUT}', '/')
    short = {}
    for n in g: short.setdefault(n.split('.')[-1], []).append(n)
    cthm = [n for n in g if re.match(r'Verif\.Props\.C\d\d+_', n) and n.count('.') == 2]
    for m in muts:
        f = os.path.join(MUT, m['file']); o = open(os.path.join(SRC, m['file'])).read()
        cnt = o.count(m['old'])
        if cnt != 1:
            print('BAD', m['definition'], cnt, 'occurrences of', m['old']); continue
        open(f, 'w').write(o.replace(m['old'], m['new']))
        # repairs of proofs of general lemmas that mention the edited text
        also = {}
        for x in m.get('also', []):
            xo = also.setdefault(x['file'], open(os.path.join(SRC, x['file'])).read())
            assert xo.count(x['old']) == 1, x
            open(os.path.join(MUT, x['file']), 'w').write(xo.replace(x['old'], x['new']))
        t = time.time()
        errs, other, dropped = [], [], set()
        failed = False
        targets = list(m.get('targets', []))
        for _ in range(8 + len(targets)):
            # the modules where a failure is expected come first
            r = sh('nice lake build ' + (targets[0] if targets else '') + ' 2>&1', MUT)
            if targets and r.returncode == 0:
                targets.pop(0)
                continue
            failed = failed or r.returncode != 0
            drop = set()
            for e in re.finditer(r'error: (\S+\.lean):(\d+):\d+: (.*)', r.stdout):
                k, n = enclosing(os.path.join(MUT, e.group(1)), int(e.group(2)))
                if k in ('theorem', 'lemma'):
                    errs.append(n)
                else:
                    other.append(f'{k} {n} in {e.group(1)}'.strip())
                    if k == 'example': drop.add((e.group(1), int(e.group(2))))
            if errs or not drop: break
            for p, ln in sorted(drop, reverse=True):
                dropped.add(p)
                if not drop_example(os.path.join(MUT, p), ln): break
        errs = sorted(set(errs)); other = sorted(set(other))
        full = set()
        for e in errs: full.update(short.get(e.split('.')[-1], []))
        dep = sorted(n.split('.')[-1] for n in closure(rev, full) if n in cthm)
        res = {'definition': m['definition'], 'file': m['file'], 'edit': m['edit'], 'claim_broken': m['claim'],
               'theorems_failed': errs, 'examples_failed': other, 'property_theorems_depending_on_failed': dep,
               'theorems_tightened': m.get('tightened', [])}
        verdict = 'caught' if failed else 'SURVIVED'
        hit = all(any(d.startswith(b + '_') for d in dep + errs) for b in m.get('breaks', []))
        if failed and not hit: verdict = 'caught-elsewhere'
        if other and not errs and not dep: verdict = 'examples-only'
        res['verdict'] = verdict
        print(verdict, m['definition'], '|', m['edit'], '|', errs[:4], other[:2], [d for d in dep][:5], f'{time.time()-t:.0f}s', flush=True)
        if verdict != 'BUILD':
            with open(LOG, 'a') as l: l.write(json.dumps(res) + '\n')
        for p in dropped: shutil.copy(os.path.join(SRC, p), os.path.join(MUT, p))
        open(f, 'w').write(o)
        for x in also: open(os.path.join(MUT, x), 'w').write(also[x])
    # restore
    sh(f'rm -rf {MUT}', '/')
main()
