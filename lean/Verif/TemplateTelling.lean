import Verif.Report
import Verif.Templates

/-!
# The texts of the lines about submodels with a template

`parse_submodel.py` and `submodel_templates.py` 333-348 once more, with the texts. `TemplateTellLemmas.lean` shows that nothing else is different from
`Templates.lean`. A formatted string is shown as it is (`reflect.py` 89-93; `base64` is only set for requests).
-/

namespace Verif.Templates
open Verif Verif.Parse Verif.Aas

/-- `root_result.append(AasTestResult(t, level=Level.ERROR))` -/
def say (t : Str) (res : Res Str) : Res Str := res.append (Res.new t .error)

/-- the same with `f"{t} @ {path}"` -/
def sayAt (t : Str) (path : List PTok) (res : Res Str) : Res Str := say (t ++ py!" @ " ++ pathText path) res

/-- `f"{value}"` of a value of a property -/
def valueText : AVal → Str
  | .sfv _ raw => raw
  | _ => []

/-- parse_submodel.py 56-76 `_parse_string` -/
def tellString (el : AVal) (path : List PTok) (res : Res Str) : Except PyExc (TVal × Res Str) :=
  if !isInst .property el then .ok (.none, sayAt py!"Cannot convert to string: must be a Property" path res)
  else do
    let v ← getAttr el .value
    if isNone v then return (.none, sayAt py!"Cannot convert to string: no value" path res)
    match ← getAttr el .valueType with
    | .enum _ t =>
      if t ≠ py!"xs:string" then
        return (.none, sayAt (py!"Cannot convert '" ++ valueText v ++ py!"' to string: valueType must be xs:string") path res)
      else match v with
        | .sfv _ raw => return (.str raw, res)
        | _ => throw .attributeError
    | _ => return (.none, sayAt (py!"Cannot convert '" ++ valueText v ++ py!"' to string: valueType must be xs:string") path res)

/-- parse_submodel.py 79-99 `_parse_date` -/
def tellDate (el : AVal) (path : List PTok) (res : Res Str) : Except PyExc (TVal × Res Str) :=
  if !isInst .property el then .ok (.none, sayAt py!"Cannot convert to date: must be a Property" path res)
  else do
    let v ← getAttr el .value
    if isNone v then return (.none, sayAt py!"Cannot convert to date: no value" path res)
    match ← getAttr el .valueType with
    | .enum _ t =>
      if t ≠ py!"xs:date" then
        return (.none, sayAt (py!"Cannot convert '" ++ valueText v ++ py!"' to date: valueType must be xs:date") path res)
      else match v with
        | .sfv _ raw =>
          fromIsoFormat raw
          return (.foreign, res)
        | _ => throw .attributeError
    | _ => return (.none, sayAt (py!"Cannot convert '" ++ valueText v ++ py!"' to date: valueType must be xs:date") path res)

/-- parse_submodel.py 102-117 `_parse_lang_string` -/
def tellLang (el : AVal) (path : List PTok) (res : Res Str) : Except PyExc (TVal × Res Str) :=
  if !isInst .multiLanguageProperty el then .ok (.none, sayAt py!"Cannot convert to lang string: not a MultiLanguageProperty" path res)
  else do
    let v ← getAttr el .value
    if !truthy v then return (.none, sayAt py!"Cannot convert to lang string: no value" path res)
    return (.foreign, res)

section
variable (W : Words)

/-- parse_submodel.py 182-190 `_parse_enum`; the text of the exception is that of `Enum.__new__` -/
def tellEnum (e : TEnum) (el : AVal) (path : List PTok) (res : Res Str) : Except PyExc (TVal × Res Str) := do
  let (v, res) ← tellString el path res
  if !res.ok then return (.invalid, res)
  match v with
  | .str s =>
    if s ∈ tenumValues e then return (.enum e s, res)
    else return (.invalid, sayAt (W.repr s ++ py!" is not a valid " ++ e.pyName) path res)
  | _ => return (.invalid, sayAt (py!"None is not a valid " ++ e.pyName) path res)

/-- parse_submodel.py 175-177 the elements of a list field -/
def tellItems (rec : TTy → AVal → List PTok → Res Str → Except PyExc (TVal × Res Str)) (ty : TTy) (path : List PTok) :
    Nat → List AVal → Res Str → Except PyExc (List TVal × Res Str)
  | _, [], res => .ok ([], res)
  | i, el :: els, res => do
    let (v, res) ← rec ty el (path ++ [.idx i]) res
    let (vs, res) ← tellItems rec ty path (i + 1) els res
    return (v :: vs, res)

/-- parse_submodel.py 151-177 one field -/
def tellField (rec : TTy → AVal → List PTok → Res Str → Except PyExc (TVal × Res Str)) (sub : List AVal) (path : List PTok) (f : TField)
    (res : Res Str) : Except PyExc (TVal × Res Str) :=
  let name := toCamelCase f.name
  let found := py!"Field " ++ name ++ py!": found " ++ Py.natStr sub.length ++ py!" elements with semanticId " ++ f.semanticId
  match (generalizing := false) f.max.filter (fun m => decide (m < sub.length)) with
  | some m => .ok (.invalid, say (found ++ py!", but at most " ++ Py.natStr m ++ py!" allowed") res)
  | none =>
    if sub.length < f.min then .ok (.invalid, say (found ++ py!", but at least " ++ Py.natStr f.min ++ py!" required") res)
    else
      match sub with
      | [] => .ok (.none, res)
      | el :: _ =>
        if f.max = some 1 then rec f.ty el (path ++ [.key name]) res
        else (tellItems rec f.ty (path ++ [.key name]) 0 sub res).map fun (vs, res) => (.list vs, res)

/-- parse_submodel.py 140-178 the loop over the fields -/
def tellFields (rec : TTy → AVal → List PTok → Res Str → Except PyExc (TVal × Res Str)) (groups : List (Str × List AVal))
    (path : List PTok) : List TField → List Str → Res Str → Except PyExc (List (Str × TVal) × Res Str)
  | [], _, res => .ok ([], res)
  | f :: fs, seen, res =>
    if f.semanticId ∈ seen then .error .generic
    else do
      let (v, res) ← tellField rec ((dictGet f.semanticId groups).getD []) path f res
      let (vs, res) ← tellFields rec groups path fs (f.semanticId :: seen) res
      return ((f.name, v) :: vs, res)

/-- parse_submodel.py 132-179 `_parse_elements` -/
def tellElements (rec : TTy → AVal → List PTok → Res Str → Except PyExc (TVal × Res Str)) (c : TCls) (els : List AVal) (path : List PTok)
    (res : Res Str) : Except PyExc (TVal × Res Str) := do
  let groups ← group els []
  let (attrs, res) ← tellFields rec groups path (tfieldsOf c) [] res
  return (.obj c attrs, res)

/-- parse_submodel.py 193-212 `_parse`, with 120-129 `_parse_element_collection`; the number bounds the depth of the recursion -/
def ttell : Nat → TTy → AVal → List PTok → Res Str → Except PyExc (TVal × Res Str)
  | 0, _, _, _, _ => .error .runtimeError
  | n + 1, ty, el, path, res =>
    match ty with
    | .lang => tellLang el path res
    | .str => tellString el path res
    | .date => tellDate el path res
    | .enum e => tellEnum W e el path res
    | .cls c => do
      match ← getAttr el .value with
      | .none => return (.invalid, sayAt py!"No elements" path res)
      | .list l => tellElements (ttell n) c l path res
      | _ => throw .typeError

/-- parse_submodel.py 215-216 `parse_submodel` -/
def tellSubmodel (c : TCls) (submodel : AVal) (res : Res Str) : Except PyExc (TVal × Res Str) := do
  match ← getAttr submodel .submodelElements with
  | .list l => tellElements (ttell W depth) c l [] res
  | _ => throw .typeError

/-- `check_constraints` on the object of a template (parse.py 188-205), which adds its lines to the result of the submodel -/
def tellRules (v : TVal) (res : Res Str) : Except PyExc (Res Str) :=
  (checkConstraints id tchecks v [] (Res.new ⟨.title [], []⟩)).map fun r => res.appendAll (r.subs.map (Res.mapMsg fun n => n.line.shown))

/-- submodel_templates.py 334-348: one submodel -/
def tellOne (root : Res Str) (submodel : AVal) : Except PyExc (Res Str) := do
  match ← submodelKey submodel with
  | none => return root
  | some sid =>
    let id ← getAttr submodel .id
    match dictGet sid templates with
    -- the warning goes to a result that is not used
    | none => return root
    | some c =>
      let sub : Res Str := (Res.new (py!"Check submodel '" ++ valueText id ++ py!"'")).append (Res.new (py!"Template: " ++ c.pyName ++ py!" (" ++ sid ++ py!")"))
      let (v, sub) ← tellSubmodel W c submodel sub
      let sub ← if sub.ok then tellRules v sub else .ok sub
      return root.append sub

/-- submodel_templates.py 333-348 `parse_submodel_templates`, the loop -/
def tellAll : Res Str → List AVal → Except PyExc (Res Str)
  | root, [] => .ok root
  | root, sm :: sms => do tellAll (← tellOne W root sm) sms

/-- submodel_templates.py 333-348 `parse_submodel_templates` -/
def tellTemplates (root : Res Str) (env : AVal) : Except PyExc (Res Str) := do
  match ← getAttr env .submodels with
  | .none => return root
  | .list l => tellAll W root l
  | _ => throw .typeError

end
end Verif.Templates

namespace Verif.Engine
open Verif Verif.Parse Verif.Aas

/-- `__init__.py` 9-14 and 17-22 with the texts of all lines -/
def sayObj {A : Type} (W : Words) (ops : TOps A) (lim : Option Nat) (fuel : Nat) (value : A) (modelType : Str) : Except PyExc (Res Str × AVal) := do
  let (result, env) ← tellObj W ops lim fuel value modelType
  let result := result.mapMsg Line.said
  if result.ok then
    let result ← Templates.tellTemplates W result env
    return (result, env)
  else return (result, env)

/-- The checks used by `file.py`, with the texts of all lines. -/
def textEngine (W : Words) (lim : Option Nat) : File.Engine Json Xml where
  json data modelType := (sayObj W (jsonTells W) lim (data.size + 1) ⟨data, []⟩ modelType).map (·.1)
  xml data modelType := (sayObj W (xmlTells W) lim (data.size + 1) ⟨data, []⟩ modelType).map (·.1)

end Verif.Engine
