# Compares the constant parts of the texts in model.py with those in lean/Verif/Messages.lean; prints those not found.
# Expected: 59 and 204 (texts made elsewhere) and line 845 (the list of categories is written out in the model).
import ast,re
src=open('/repo/aas_test_engines/test_cases/v3_0/model.py').read()
lean=open('/verif/lean/Verif/Messages.lean').read()
frs=set(re.findall(r'py!"((?:[^"\\]|\\.)*)"',lean))
t=ast.parse(src)
want=[]
def parts(n):
    if isinstance(n,ast.Constant) and isinstance(n.value,str): return [n.value]
    if isinstance(n,ast.JoinedStr): return [v.value if isinstance(v,ast.Constant) else None for v in n.values]
    return None
for n in ast.walk(t):
    if isinstance(n,ast.Call) and getattr(n.func,'id','')=='CheckConstraintException':
        p=parts(n.args[0]); want.append((n.lineno,p))
    if isinstance(n,(ast.Assign,ast.AugAssign)):
        tg=n.targets[0] if isinstance(n,ast.Assign) else n.target
        if getattr(tg,'id','')=='msg': want.append((n.lineno,parts(n.value)))
for ln,p in sorted(want):
    if p is None: print(ln,'?'); continue
    for x in p:
        if x is None: continue
        if x in frs: continue
        if x.endswith(' @ ') and x[:-3] in frs: continue
        print(ln,repr(x))
# The same for the texts of the adapters, the parser and the strings, and lean/Verif/Telling.lean and Report.lean.
# Expected: parse.py 122 and 124 (the place is added by `Line.shown`), reflect.py 243 and 247 (not in reports).
lean=''.join(open(f'/verif/lean/Verif/{m}.lean').read() for m in ('Telling','Report'))
frs={x.encode().decode('unicode_escape') for x in re.findall(r'py!"((?:[^"\\]|\\.)*)"',lean)}
for f in ('adapter.py','parse.py','model.py','../../reflect.py'):
    t=ast.parse(open('/repo/aas_test_engines/test_cases/v3_0/'+f).read())
    for n in ast.walk(t):
        if isinstance(n,ast.Call) and getattr(n.func,'id','') in ('AdapterException','ValueError','AasTestResult') and n.args:
            for x in parts(n.args[0]) or []:
                if x is not None and x not in frs: print(f,n.lineno,repr(x))
# The same for the texts about submodel templates, and lean/Verif/TemplateTelling.lean.
# Expected: parse_submodel.py 144 and 146 (not in reports), submodel_templates.py 342 (goes to a result that is not used).
lean=open('/verif/lean/Verif/TemplateTelling.lean').read()+open('/verif/lean/Verif/Templates.lean').read()
frs={x.encode().decode('unicode_escape') for x in re.findall(r'py!"((?:[^"\\]|\\.)*)"',lean)}
for f in ('parse_submodel.py','submodel_templates.py'):
    t=ast.parse(open('/repo/aas_test_engines/test_cases/v3_0/'+f).read())
    for n in ast.walk(t):
        if isinstance(n,ast.Call) and getattr(n.func,'id','') in ('AasTestResult','CheckConstraintException','Exception') and n.args:
            for x in parts(n.args[0]) or []:
                if x is not None and x not in frs and not (x.endswith(' @ ') and x[:-3] in frs): print(f,n.lineno,repr(x))
