"""Writes lean/Verif/Spec/Titles.lean: for each operation the tests of its suite in the order of their execution, read from the sources with ast."""
import ast, glob, os
D = '/repo/aas_test_engines/test_cases/v3_0/interfaces/'
classes = {}
for f in sorted(glob.glob(D + '*.py')):
    for n in ast.parse(open(f).read()).body:
        if isinstance(n, ast.ClassDef):
            if n.name.endswith('Response'): continue
            assert n.name not in classes, n.name
            classes[n.name] = (os.path.basename(f), n)

def bases(c):
    return [b.id for b in classes[c][1].bases if isinstance(b, ast.Name) and b.id in classes]

def mro(c):
    def merge(ls):
        ls = [l for l in ls if l]
        if not ls: return []
        for l in ls:
            h = l[0]
            if not any(h in m[1:] for m in ls):
                return [h] + merge([m[1:] if m[0] == h else m for m in ls])
        raise Exception(c)
    bs = bases(c)
    return [c] + merge([mro(b) for b in bs] + [bs])

def esc(s):
    return s.replace('\\', '\\\\').replace('"', '\\"').replace('\n', '\\n')

rows = []
for c, (f, n) in classes.items():
    op = None
    fns = {}
    for k in reversed(mro(c)):
        for s in classes[k][1].body:
            if isinstance(s, ast.Assign) and s.targets[0].id == 'operation': op = ast.literal_eval(s.value)
            if isinstance(s, ast.FunctionDef) and s.name.startswith('test_'):
                line = min([s.lineno] + [d.lineno for d in s.decorator_list])
                fns[s.name] = (line, ast.get_docstring(s, clean=False), classes[k][0])
    own = any(isinstance(s, ast.Assign) and s.targets[0].id == 'operation' for s in n.body)
    if not own: continue
    order = sorted(sorted(fns), key=lambda x: fns[x][0])
    rows.append((f, op, [(x, fns[x][1] or x) for x in order]))

# a docstring begins with a line break and ends with the indentation of the closing quotes
PRE, POST = '\n        ', '\n        '
out = ['import Verif.Py', '', '/-!', '# Tests of the operations', '', 'Generated by `tools/gen_tests.py` from the docstrings and positions of the methods `test_...` in `interfaces/*.py`.', '-/', '',
       'namespace Verif.Spec.Suites', '', '/-- a docstring of one line -/', 'def docstring (s : Str) : Str := py!"\\n        " ++ (s ++ py!"\\n        ")', '',
       '/-- operations, with the names and titles of their tests in the order of execution -/', 'def titles : List (Str × List (Str × Str)) :=', '  [']
items = []
for f, op, ts in rows:
    l = []
    for x, d in ts:
        if d.startswith(PRE) and d.endswith(POST): l.append('(py!"%s", docstring py!"%s")' % (x, esc(d[len(PRE):-len(POST)])))
        else: l.append('(py!"%s", py!"%s")' % (x, esc(d)))
    items.append('   -- %s\n   (py!"%s",\n    [%s])' % (f, op, ',\n     '.join(l)))
out.append(',\n'.join(items) + ']')
out += ['', 'def titlesOf (operation : Str) : List (Str × Str) := ((titles.find? fun n => n.1 == operation).map (·.2)).getD []', '', 'end Verif.Spec.Suites', '']
open('/verif/lean/Verif/Spec/Titles.lean', 'w').write('\n'.join(out))
print(len(rows), len({r[1] for r in rows}))
