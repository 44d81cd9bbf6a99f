#!/usr/bin/env python3
"""Writes lean/Verif/Schema.lean from the text of model.py and data_types.py (parsed, not executed)."""
import ast, re
SRC = '/repo/aas_test_engines/test_cases/v3_0/model.py'
text = open(SRC).read()
tree = ast.parse(text)
xsd = ast.parse(open('/repo/aas_test_engines/data_types.py').read())
aliases = {}          # QualifierType = NameTypeString
classes = {}          # name -> node, in order of definition
for n in tree.body:
    if isinstance(n, ast.ClassDef):
        classes[n.name] = n
    elif isinstance(n, ast.Assign) and isinstance(n.value, ast.Name):
        aliases[n.targets[0].id] = n.value.id
xsd_enum = next(n for n in xsd.body if isinstance(n, ast.ClassDef) and n.name == 'DataTypeDefXsd')

def bases(c): return [b.id for b in classes[c].bases]
def kind(c):
    if c == 'IdShortPath': return None
    b = bases(c)
    if b == ['Enum']: return 'enum'
    if b == ['StringFormattedValue']: return 'sfv'
    return 'cls'
enums = [c for c in classes if kind(c) == 'enum'] + ['DataTypeDefXsd']
sfvs = [c for c in classes if kind(c) == 'sfv']
clss = [c for c in classes if kind(c) == 'cls']

RESERVED = {'first', 'type', 'instance', 'end', 'from', 'at', 'open', 'by', 'fun', 'let', 'in', 'do', 'if', 'then', 'else', 'export', 'extends', 'abstract', 'prefix', 'infix', 'notation'}
def lean(c):
    c = c[0].lower() + c[1:]
    return c + '_' if c in RESERVED else c
def fld(n):
    parts = n.split('_')
    return lean(parts[0] + ''.join(p.capitalize() for p in parts[1:]))

def ty(a):
    """(lean type, optional)"""
    if isinstance(a, ast.Constant) and isinstance(a.value, str):
        return ty(ast.parse(a.value, mode='eval').body)
    if isinstance(a, ast.Subscript):
        f, x = a.value.id, a.slice
        if f == 'Optional': return (ty(x)[0], True)
        if f == 'NonEmptyList': return ('.list (%s) false' % ty(x)[0], False)
        if f == 'List': return ('.list (%s) true' % ty(x)[0], False)
        raise Exception(ast.dump(a))
    n = aliases.get(a.id, a.id)
    if n == 'str': return ('.str', False)
    if n == 'bool': return ('.bool', False)
    if n in enums: return ('.enum .' + lean(n), False)
    if n in sfvs: return ('.sfv .' + lean(n), False)
    if n in clss: return ('.cls .' + lean(n), False)
    raise Exception(n)

def own_fields(c):
    out = []
    for n in classes[c].body:
        if isinstance(n, ast.AnnAssign):
            if n.value is None:
                t, opt = ty(n.annotation)
                out.append((n.target.id, t, opt, False))
            else:
                assert 'exclude_as' in ast.dump(n.value) and n.annotation.id == 'IdShortPath'
                out.append((n.target.id, None, False, True))
    return out
def methods(c):
    return [(n.name, n.lineno, n.end_lineno) for n in classes[c].body if isinstance(n, ast.FunctionDef) and n.name.startswith('check_')]
def decorators(c):
    return [d.id for d in classes[c].decorator_list if isinstance(d, ast.Name)]
def lines(c):
    n = classes[c]
    return '%d-%d' % (n.lineno, n.end_lineno)
def camel(s):
    x = ''.join(p.capitalize() for p in s.lower().split('_'))
    return s[0].lower() + x[1:]

def merge(seqs):
    out = []
    while True:
        seqs = [s for s in seqs if s]
        if not seqs: return out
        for s in seqs:
            if not any(s[0] in t[1:] for t in seqs): break
        else: raise Exception
        h = s[0]
        out.append(h)
        seqs = [[x for x in t if x != h] for t in seqs]
def mro(c):
    b = [x for x in bases(c)]
    return [c] + merge([mro(x) for x in b] + [b])
def full_fields(c):
    d = {}
    for b in reversed(mro(c)[1:]):
        for f in full_fields(b): d[f[0]] = f
    for f in own_fields(c): d[f[0]] = f
    return list(d.values())
def abstract(c): return 'abstract' in decorators(c)
def subs(c):
    for d in clss:
        if c in bases(d):
            if not abstract(d): yield d
            yield from subs(d)
def all_checks(c):
    d = {}
    for b in reversed(mro(c)):
        for m in methods(b): d[m[0]] = b
    return [(m, d[m]) for m in sorted(d)]
flds = []
for c in clss:
    for f in own_fields(c):
        if f[0] not in flds: flds.append(f[0])
meths = [(c, m) for c in clss for m in methods(c)]
def meth(c, m): return lean(c) + '_' + m[len('check_'):]

def const(c, name):
    for n in classes[c].body:
        if isinstance(n, ast.Assign) and n.targets[0].id == name: return n.value.value
    return None
def enum_values(c):
    node = xsd_enum if c == 'DataTypeDefXsd' else classes[c]
    return [n.value.value for n in node.body if isinstance(n, ast.Assign)]
def lit(s):
    out = ''
    for ch in s:
        if ch in '"\\': out += '\\' + ch
        elif ch == '\t': out += '\\t'
        elif 32 <= ord(ch) < 127: out += ch
        else: out += '\\u%04x' % ord(ch)
    return 'py!"%s"' % out

o = []
w = o.append
w('''import Verif.Parse

/-!
# The classes of `aas_test_engines/test_cases/v3_0/model.py`

Generated by `tools/gen_schema.py` from the source text. The declarations of each class are given as they are in the source (`bases`,
`ownFields`, `ownChecks`, ...); inheritance is computed as Python does (`mro`, `dataclassFields`, `collectSubclasses`). The outcome is
also given in explicit tables (`fieldsOf`, `subclassesOf`, `checkTable`), which `SchemaLemmas.lean` proves to be the same.
-/

namespace Verif.Aas
open Verif Verif.Parse
''')
def inductive(name, doc, ctors):
    w('/-- %s -/' % doc)
    w('inductive ' + name)
    for i in range(0, len(ctors), 6):
        w('  | ' + ' | '.join(ctors[i:i+6]))
    w('  deriving DecidableEq, Repr\n')
inductive('Cls', 'the dataclasses of model.py 65-1466', [lean(c) for c in clss])
inductive('EnumCls', 'the enumerations of model.py and `DataTypeDefXsd` (data_types.py 326-356)', [lean(c) for c in enums])
inductive('SfvCls', 'the classes of formatted strings, model.py 98-186 and 517-524', [lean(c) for c in sfvs])
inductive('Fld', 'the names of the fields', [fld(f) for f in flds])
w('abbrev ATy := Ty Cls EnumCls SfvCls')
w('abbrev AVal := Val Cls EnumCls SfvCls Fld')
w('abbrev AField := Field Cls EnumCls SfvCls Fld\n')
def table(name, typ, doc, rows, default=None, comment=None):
    w('/-- %s -/' % doc)
    w('def %s : %s' % (name, typ))
    for k, v, *cm in rows:
        w('  | .%s => %s' % (k, v) + ('  -- ' + cm[0] if cm and cm[0] else ''))
    if default is not None: w('  | _ => ' + default)
    w('')
table('allCls', 'List Cls', '', []) if False else None
w('/-- in the order of definition -/')
w('def allCls : List Cls :=\n  [' + ', '.join('.' + lean(c) for c in clss) + ']\n')
table('Cls.pyName', 'Cls → Str', '`__name__`', [(lean(c), lit(c), 'model.py ' + lines(c)) for c in clss])
table('EnumCls.pyName', 'EnumCls → Str', '`__name__`', [(lean(c), lit(c), 'data_types.py 326-356' if c == 'DataTypeDefXsd' else 'model.py ' + lines(c)) for c in enums])
table('SfvCls.pyName', 'SfvCls → Str', '`__name__`', [(lean(c), lit(c), 'model.py ' + lines(c)) for c in sfvs])
table('Fld.pyName', 'Fld → Str', 'the Python name', [(fld(f), lit(f)) for f in flds])
table('enumValuesOf', 'EnumCls → List Str', 'the values of the members', [(lean(c), '[' + ', '.join(lit(v) for v in enum_values(c)) + ']') for c in enums])
table('minLengthOf', 'SfvCls → Option Nat', '`min_length`', [(lean(c), 'some %d' % const(c, 'min_length')) for c in sfvs if const(c, 'min_length') is not None], 'none')
table('maxLengthOf', 'SfvCls → Option Nat', '`max_length`', [(lean(c), 'some %d' % const(c, 'max_length')) for c in sfvs if const(c, 'max_length') is not None], 'none')
table('patternOf', 'SfvCls → Option Str', '`pattern`', [(lean(c), 'some ' + lit(const(c, 'pattern'))) for c in sfvs if const(c, 'pattern') is not None], 'none')
def maxlen(c):
    for k in classes[c].keywords:
        if k.arg == 'max_len_text': return k.value.value
table('maxLenText', 'Cls → Option Nat', '`_max_len_text`', [(lean(c), 'some %d' % maxlen(c)) for c in clss if maxlen(c)], 'none')
w('''/-- a declared field -/
structure Decl where
  name : Fld
  /-- `none`: `metadata={"exclude_as": None}` -/
  ty : Option ATy
  optional : Bool
  deriving DecidableEq, Repr
''')
table('bases', 'Cls → List Cls', 'declared base classes', [(lean(c), '[' + ', '.join('.' + lean(b) for b in bases(c)) + ']') for c in clss if bases(c)], '[]')
table('ownFields', 'Cls → List Decl', 'declared fields',
  [(lean(c), '[' + ', '.join('⟨.%s, %s, %s⟩' % (fld(f[0]), 'none' if f[3] else 'some (%s)' % f[1], 'true' if f[2] else 'false') for f in own_fields(c)) + ']') for c in clss if own_fields(c)], '[]')
table('isAbstract', 'Cls → Bool', '`@abstract` (applies to the class itself only, reflect.py 19-26)', [(lean(c), 'true') for c in clss if abstract(c)], 'false')
table('requiresModelType', 'Cls → Bool', '`@requires_model_type` (inherited, parse.py 36-42)', [(lean(c), 'true') for c in clss if 'requires_model_type' in decorators(c)], 'false')
inductive('Method', 'the methods `check_...`', [meth(c, m[0]) for c, m in meths])
table('Method.pyName', 'Method → Str', 'the name of the method', [(meth(c, m[0]), lit(m[0]), 'model.py %d-%d' % (m[1], m[2])) for c, m in meths])
table('ownChecks', 'Cls → List Method', 'declared methods `check_...`', [(lean(c), '[' + ', '.join('.' + meth(c, m[0]) for m in methods(c)) + ']') for c in clss if methods(c)], '[]')
w('''/-! ## inheritance -/

/-- one step of the C3 merge: the first head that is in no tail -/
def pick (seqs : List (List Cls)) : Option Cls :=
  seqs.findSome? fun s =>
    match s with
    | [] => none
    | h :: _ => if seqs.any (fun t => t.tail.contains h) then none else some h

/-- C3 merge of Python's method resolution order -/
def merge : Nat → List (List Cls) → List Cls
  | 0, _ => []
  | n + 1, seqs =>
    match pick seqs with
    | none => []
    | some h => h :: merge n (seqs.map (·.filter (fun x => decide (x ≠ h))))

/-- `__mro__` (without `object`); the fuel bounds the depth of the hierarchy -/
def mroF : Nat → Cls → List Cls
  | 0, c => [c]
  | n + 1, c => c :: merge 20 ((bases c).map (mroF n) ++ [bases c])
def mro (c : Cls) : List Cls := mroF 6 c

/-- `d[f.name] = f` -/
def setField (fs : List Decl) (f : Decl) : List Decl :=
  if fs.any (fun g => decide (g.name = f.name)) then fs.map (fun g => if g.name = f.name then f else g) else fs ++ [f]

/-- `dataclasses.fields`: the fields of the bases in reverse method resolution order, then the own ones -/
def dataclassFieldsF : Nat → Cls → List Decl
  | 0, c => ownFields c
  | n + 1, c => (((mro c).tail.reverse.map (dataclassFieldsF n)).flatten ++ ownFields c).foldl setField []
def dataclassFields (c : Cls) : List Decl := dataclassFieldsF 6 c

/-- reflect.py 261-281: names in the document are given by parse.py 129-132 -/
def toField (d : Decl) : Option AField :=
  match d.ty with
  | none => some ⟨d.name, .excluded⟩
  | some ty => (toLowerCamelCase d.name.pyName).map fun key => ⟨d.name, .attr key ty (!d.optional)⟩

/-- `cls.__subclasses__()` -/
def directSubclasses (c : Cls) : List Cls := allCls.filter (fun d => (bases d).contains c)

/-- reflect.py 222-226 `_collect_subclasses` -/
def collectSubclassesF : Nat → Cls → List Cls
  | 0, _ => []
  | n + 1, c => (directSubclasses c).flatMap fun d => (if isAbstract d then [] else [d]) ++ collectSubclassesF n d
def collectSubclasses (c : Cls) : List Cls := collectSubclassesF 6 c

/-- `str` comparison -/
def strLt : Str → Str → Bool
  | _, [] => false
  | [], _ :: _ => true
  | a :: s, b :: t => if a < b then true else if a = b then strLt s t else false

def insertMethod (m : Method) : List Method → List Method
  | [] => [m]
  | x :: xs => if m.pyName = x.pyName then x :: xs else if strLt m.pyName x.pyName then m :: x :: xs else x :: insertMethod m xs

/-- parse.py 193 the methods found by `dir`: sorted by name; the first class of the method resolution order counts -/
def collectChecks (c : Cls) : List Method := ((mro c).flatMap ownChecks).foldl (fun acc m => insertMethod m acc) []

/-! ## outcome -/
''')
def lean_field(f):
    if f[3]: return '⟨.%s, .excluded⟩' % fld(f[0])
    return '⟨.%s, .attr %s (%s) %s⟩' % (fld(f[0]), lit(camel(f[0])), f[1], 'false' if f[2] else 'true')
w('/-- fields of each class, with their names in the document -/')
w('def fieldsOf : Cls → List AField')
for c in clss:
    ff = full_fields(c)
    if not ff: w('  | .%s => []' % lean(c)); continue
    w('  | .%s => [' % lean(c))
    w(',\n'.join('      ' + lean_field(f) for f in ff) + ']')
w('')
table('subclassesOf', 'Cls → List Cls', 'concrete subclasses of each class', [(lean(c), '[' + ', '.join('.' + lean(d) for d in subs(c)) + ']') for c in clss if list(subs(c))], '[]')
table('needsModelTypeOf', 'Cls → Bool', 'classes that need a discriminator', [(lean(c), 'true') for c in clss if any('requires_model_type' in decorators(b) for b in mro(c))], 'false')
table('checkTable', 'Cls → List Method', 'the checks of each class, in the order they are called', [(lean(c), '[' + ', '.join('.' + meth(b, m) for m, b in all_checks(c)) + ']') for c in clss if all_checks(c)], '[]')
w('end Verif.Aas')
open('/verif/lean/Verif/Schema.lean', 'w').write('\n'.join(o) + '\n')
print(len(clss), len(enums), len(sfvs), len(flds), len(meths))
