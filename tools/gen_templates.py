#!/usr/bin/env python3
"""Writes lean/Verif/TemplateTable.lean from the text of submodel_templates.py (parsed, not executed)."""
import ast
SRC = '/repo/aas_test_engines/test_cases/v3_0/submodel_templates.py'
tree = ast.parse(open(SRC).read())
enums, clss, templates = {}, {}, []
def lean(c): return c[0].lower() + c[1:]
def unwrap(a):
    """parse_submodel.py 26-53 `_unwrap`: (min, max, type)"""
    if isinstance(a, ast.Subscript) and a.value.id == 'Optional':
        lo, hi, t = unwrap(a.slice)
        return 0, hi, t
    if isinstance(a, ast.Subscript) and a.value.id == 'List':
        return 1, 'none', base(a.slice)
    return 1, 'some 1', base(a)
def base(a):
    if isinstance(a, ast.Attribute):
        assert ast.unparse(a) == 'datetime.date'
        return '.date'
    if a.id == 'str': return '.str'
    if a.id == 'LangString': return '.lang'
    if a.id in enums: return '.enum .' + lean(a.id)
    if a.id in clss: return '.cls .' + lean(a.id)
    raise Exception(ast.dump(a))
for n in tree.body:
    if not isinstance(n, ast.ClassDef): continue
    if [ast.unparse(b) for b in n.bases] == ['Enum']:
        enums[n.name] = (n, [(x.targets[0].id, x.value.value) for x in n.body])
        continue
    fs, checks = [], []
    for x in n.body:
        if isinstance(x, ast.AnnAssign):
            assert x.value.func.id == 'field' and len(x.value.keywords) == 1 and x.value.keywords[0].arg == 'metadata'
            md = ast.literal_eval(x.value.keywords[0].value)
            assert list(md) == ['semantic_id']
            fs.append((x.target.id, md['semantic_id']) + unwrap(x.annotation))
        elif isinstance(x, ast.FunctionDef):
            checks.append(x.name)
    clss[n.name] = (n, fs, checks)
    for d in n.decorator_list:
        if isinstance(d, ast.Call) and d.func.id == 'template':
            templates.append((d.args[0].value, n.name))
o = []
w = o.append
w('import Verif.Model')
w('')
w('/-!')
w('# The submodel templates')
w('')
w('Generated by tools/gen_templates.py from the text of test_cases/v3_0/submodel_templates.py. Do not edit.')
w('-/')
w('')
w('namespace Verif.Templates')
w('open Verif')
w('')
w('/-- the dataclasses (submodel_templates.py 42-330) -/')
w('inductive TCls\n  | ' + ' | '.join(lean(c) for c in clss) + '\n  deriving DecidableEq, Repr')
w('')
w('/-- the enumerations -/')
w('inductive TEnum\n  | ' + ' | '.join(lean(c) for c in enums) + '\n  deriving DecidableEq, Repr')
w('')
w('/-- the types of fields, without `Optional` and `List` -/')
w('inductive TTy\n  | str | date | lang\n  | enum (e : TEnum)\n  | cls (c : TCls)\n  deriving DecidableEq, Repr')
w('')
w('/-- a field: Python name, semantic id, cardinality as of `_unwrap` (parse_submodel.py 26-53; `none`: no upper bound), type -/')
w('structure TField where\n  name : Str\n  semanticId : Str\n  min : Nat\n  max : Option Nat\n  ty : TTy\n  deriving DecidableEq, Repr')
w('')
w('/-- values of the members of an enumeration -/')
w('def tenumValues : TEnum → List Str')
for c, (n, ms) in enums.items():
    w('  | .%s => [%s]  -- submodel_templates.py %d-%d' % (lean(c), ', '.join('py!"%s"' % v for _, v in ms), n.lineno, n.end_lineno))
w('')
w('/-- `dataclasses.fields` -/')
w('def tfieldsOf : TCls → List TField')
for c, (n, fs, _) in clss.items():
    w('  -- submodel_templates.py %d-%d' % (n.lineno, n.end_lineno))
    w('  | .%s => [' % lean(c))
    w(',\n'.join('      ⟨py!"%s", py!"%s", %d, %s, %s⟩' % f for f in fs) + ']')
w('')
w('/-- names of the classes -/')
w('def TCls.pyName : TCls → Str')
for c in clss: w('  | .%s => py!"%s"' % (lean(c), c))
w('')
w('/-- names of the enumerations -/')
w('def TEnum.pyName : TEnum → Str')
for e in enums: w('  | .%s => py!"%s"' % (lean(e), e))
w('')
w('/-- methods named `check_…` (only `check_family_or_type_present`, 328-330) -/')
w('def checkNames : TCls → List Str')
for c, (_, _, ch) in clss.items():
    if ch: w('  | .%s => [%s]' % (lean(c), ', '.join('py!"%s"' % x for x in ch)))
w('  | _ => []')
w('')
w('/-- submodel_templates.py 12-22 `templates` -/')
w('def templates : List (Str × TCls) := [\n  ' + ',\n  '.join('(py!"%s", .%s)' % (s, lean(c)) for s, c in templates) + ']')
w('')
w('/-- all classes -/')
w('def allTCls : List TCls := [' + ', '.join('.' + lean(c) for c in clss) + ']')
w('')
w('end Verif.Templates')
open('/verif/lean/Verif/TemplateTable.lean', 'w').write('\n'.join(o) + '\n')
