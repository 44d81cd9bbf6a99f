import Verif.TemplateTable
import Verif.Adapter

/-!
# Model of `parse_submodel.py` and of `parse_submodel_templates` (submodel_templates.py 333-348)

Only called with objects that passed the checks of the meta-model (`__init__.py` 12-13, 20-21). The wording of messages is simplified, their
paths are not. A language map and a date, of which only the existence matters, are `foreign`.
-/

namespace Verif.Templates
open Verif Verif.Parse Verif.Aas

/-- values built by the template parser -/
abbrev TVal := Val TCls TEnum Empty Str

/-- `getattr` -/
def getAttr (v : AVal) (f : Fld) : Except PyExc AVal :=
  match v with
  | .obj _ attrs =>
    match lookup f attrs with
    | some w => .ok w
    | none => .error .attributeError
  | _ => .error .attributeError

/-- `isinstance(v, c)` for classes without subclasses -/
def isInst (c : Cls) : AVal → Bool
  | .obj c' _ => decide (c' = c)
  | _ => false

/-- parse_submodel.py 22-23 `to_camel_case`, for ASCII; the flag tells whether the previous character is a letter (`str.title`) -/
def camelF : Bool → Str → Str
  | _, [] => []
  | prev, c :: s =>
    let lower := decide (97 ≤ c ∧ c ≤ 122)
    let upper := decide (65 ≤ c ∧ c ≤ 90)
    let c' := if lower && !prev then c - 32 else if upper && prev then c + 32 else c
    let rest := camelF (lower || upper) s
    if c = pc! '_' then rest else c' :: rest
def toCamelCase (s : Str) : Str := camelF false s

/-- parse_submodel.py 56-76 `_parse_string` -/
def parseString (el : AVal) (path : List PTok) (res : Res Note) : Except PyExc (TVal × Res Note) :=
  if !isInst .property el then .ok (.none, report (.other py!"must be a Property") path res)
  else do
    let v ← getAttr el .value
    if isNone v then return (.none, report (.other py!"no value") path res)
    match ← getAttr el .valueType with
    | .enum _ t =>
      if t ≠ py!"xs:string" then return (.none, report (.other py!"valueType must be xs:string") path res)
      else match v with
        | .sfv _ raw => return (.str raw, res)
        | _ => throw .attributeError
    | _ => return (.none, report (.other py!"valueType must be xs:string") path res)

/-- a number of digits as of `parse_digits` of CPython -/
def digits2 (a b : Nat) : Option Nat := if Re.isDigit a && Re.isDigit b then some ((a - 48) * 10 + (b - 48)) else none

/-- `datetime.date.fromisoformat`, the format YYYY-MM-DD only: the other formats it accepts (YYYYMMDD, week dates) are no xs:date, and the
value passed the check of its data type -/
def fromIsoFormat : Str → Except PyExc Unit
  | [y1, y2, y3, y4, s1, m1, m2, s2, d1, d2] =>
    match digits2 y1 y2, digits2 y3 y4, digits2 m1 m2, digits2 d1 d2 with
    | some a, some b, some m, some d =>
      let y := a * 100 + b
      if s1 = pc! '-' ∧ s2 = pc! '-' ∧ 1 ≤ y ∧ 1 ≤ m ∧ m ≤ 12 ∧ 1 ≤ d ∧
        d ≤ (if m = 2 then (if y % 4 = 0 ∧ (y % 100 ≠ 0 ∨ y % 400 = 0) then 29 else 28) else if m ∈ [4, 6, 9, 11] then 30 else 31)
      then .ok () else .error .valueError
    | _, _, _, _ => .error .valueError
  | _ => .error .valueError

/-- parse_submodel.py 79-99 `_parse_date` -/
def parseDate (el : AVal) (path : List PTok) (res : Res Note) : Except PyExc (TVal × Res Note) :=
  if !isInst .property el then .ok (.none, report (.other py!"must be a Property") path res)
  else do
    let v ← getAttr el .value
    if isNone v then return (.none, report (.other py!"no value") path res)
    match ← getAttr el .valueType with
    | .enum _ t =>
      if t ≠ py!"xs:date" then return (.none, report (.other py!"valueType must be xs:date") path res)
      else match v with
        | .sfv _ raw =>
          fromIsoFormat raw
          return (.foreign, res)
        | _ => throw .attributeError
    | _ => return (.none, report (.other py!"valueType must be xs:date") path res)

/-- parse_submodel.py 102-117 `_parse_lang_string` -/
def parseLang (el : AVal) (path : List PTok) (res : Res Note) : Except PyExc (TVal × Res Note) :=
  if !isInst .multiLanguageProperty el then .ok (.none, report (.other py!"not a MultiLanguageProperty") path res)
  else do
    let v ← getAttr el .value
    if !truthy v then return (.none, report (.other py!"no value") path res)
    return (.foreign, res)

/-- parse_submodel.py 182-190 `_parse_enum`: after any error so far, the value is not looked at -/
def parseEnum (e : TEnum) (el : AVal) (path : List PTok) (res : Res Note) : Except PyExc (TVal × Res Note) := do
  let (v, res) ← parseString el path res
  if !res.ok then return (.invalid, res)
  match v with
  | .str s => if s ∈ tenumValues e then return (.enum e s, res) else return (.invalid, report .notInEnum path res)
  | _ => return (.invalid, report .notInEnum path res)

/-- parse_submodel.py 135-136 the key of an element: the value of the first key of its semantic id -/
def semKey (el : AVal) : Except PyExc (Option Str) := do
  let s ← getAttr el .semanticId
  if isNone s then return none
  match ← getAttr s .keys with
  | .list (k :: _) =>
    match ← getAttr k .value with
    | .sfv _ raw => return some raw
    | _ => throw .attributeError
  | .list [] => throw .indexError
  | _ => throw .typeError

/-- parse_submodel.py 133-137 `elements_by_semantic_id` -/
def group : List AVal → List (Str × List AVal) → Except PyExc (List (Str × List AVal))
  | [], g => .ok g
  | el :: els, g => do
    match ← semKey el with
    | none => group els g
    | some k => group els (XmlA.dictSet k ((dictGet k g).getD [] ++ [el]) g)

/-- parse_submodel.py 175-177 the elements of a list field -/
def parseItems (rec : TTy → AVal → List PTok → Res Note → Except PyExc (TVal × Res Note)) (ty : TTy) (path : List PTok) :
    Nat → List AVal → Res Note → Except PyExc (List TVal × Res Note)
  | _, [], res => .ok ([], res)
  | i, el :: els, res => do
    let (v, res) ← rec ty el (path ++ [.idx i]) res
    let (vs, res) ← parseItems rec ty path (i + 1) els res
    return (v :: vs, res)

/-- parse_submodel.py 151-177 one field -/
def parseField (rec : TTy → AVal → List PTok → Res Note → Except PyExc (TVal × Res Note)) (sub : List AVal) (path : List PTok) (f : TField)
    (res : Res Note) : Except PyExc (TVal × Res Note) :=
  let name := toCamelCase f.name
  if f.max.any (fun m => decide (m < sub.length)) then .ok (.invalid, report (.other (py!"too many elements: " ++ name)) [] res)
  else if sub.length < f.min then .ok (.invalid, report (.other (py!"too few elements: " ++ name)) [] res)
  else
    match sub with
    | [] => .ok (.none, res)
    | el :: _ =>
      if f.max = some 1 then rec f.ty el (path ++ [.key name]) res
      else (parseItems rec f.ty (path ++ [.key name]) 0 sub res).map fun (vs, res) => (.list vs, res)

/-- parse_submodel.py 140-178 the loop over the fields -/
def parseFields (rec : TTy → AVal → List PTok → Res Note → Except PyExc (TVal × Res Note)) (groups : List (Str × List AVal))
    (path : List PTok) : List TField → List Str → Res Note → Except PyExc (List (Str × TVal) × Res Note)
  | [], _, res => .ok ([], res)
  | f :: fs, seen, res =>
    if f.semanticId ∈ seen then .error .generic
    else do
      let (v, res) ← parseField rec ((dictGet f.semanticId groups).getD []) path f res
      let (vs, res) ← parseFields rec groups path fs (f.semanticId :: seen) res
      return ((f.name, v) :: vs, res)

/-- parse_submodel.py 132-179 `_parse_elements` -/
def parseElements (rec : TTy → AVal → List PTok → Res Note → Except PyExc (TVal × Res Note)) (c : TCls) (els : List AVal) (path : List PTok)
    (res : Res Note) : Except PyExc (TVal × Res Note) := do
  let groups ← group els []
  let (attrs, res) ← parseFields rec groups path (tfieldsOf c) [] res
  return (.obj c attrs, res)

/-- parse_submodel.py 193-212 `_parse`, with 120-129 `_parse_element_collection`; the number bounds the depth of the recursion -/
def tparse : Nat → TTy → AVal → List PTok → Res Note → Except PyExc (TVal × Res Note)
  | 0, _, _, _, _ => .error .runtimeError
  | n + 1, ty, el, path, res =>
    match ty with
    | .lang => parseLang el path res
    | .str => parseString el path res
    | .date => parseDate el path res
    | .enum e => parseEnum e el path res
    | .cls c => do
      match ← getAttr el .value with
      | .none => return (.invalid, report (.other py!"No elements") path res)
      | .list l => parseElements (tparse n) c l path res
      | _ => throw .typeError

/-- nesting of the template classes, see `rank_fields` -/
def depth : Nat := 4

/-- parse_submodel.py 215-216 `parse_submodel` -/
def parseSubmodel (c : TCls) (submodel : AVal) (res : Res Note) : Except PyExc (TVal × Res Note) := do
  match ← getAttr submodel .submodelElements with
  | .list l => parseElements (tparse depth) c l [] res
  | _ => throw .typeError

/-- submodel_templates.py 328-330 `check_family_or_type_present` -/
def checkFamily (v : TVal) : Chk Unit :=
  let absent (name : Str) : Bool := match v with
    | .obj _ attrs => match dictGet name attrs with
      | some .none => true
      | _ => false
    | _ => false
  if absent py!"manufacturer_product_family" && absent py!"manufacturer_product_type" then
    .error (.violated py!"Either ManufacturerProductFamily or ManufacturerProductType is required" .error)
  else .ok ()

/-- the methods `check_…` of the template classes -/
def tchecks (c : TCls) : List (TVal → Chk Unit) := (checkNames c).map fun _ => checkFamily

/-- submodel_templates.py 335-337 the semantic id of a submodel; without one, or without keys, the submodel is skipped -/
def submodelKey (sm : AVal) : Except PyExc (Option Str) := do
  let s ← getAttr sm .semanticId
  if isNone s then return none
  match ← getAttr s .keys with
  | .list (k :: _) =>
    match ← getAttr k .value with
    | .sfv _ raw => return some raw
    | _ => throw .attributeError
  | ks => if truthy ks then throw .typeError else return none

/-- submodel_templates.py 334-348: one submodel -/
def checkSubmodel (root : Res Note) (submodel : AVal) : Except PyExc (Res Note) := do
  match ← submodelKey submodel with
  | none => return root
  | some sid =>
    match dictGet sid templates with
    -- the warning goes to a result that is not used
    | none => return root
    | some c =>
      let sub : Res Note := (Res.new ⟨.title py!"Check submodel", []⟩).append (Res.new ⟨.title (py!"Template: " ++ c.pyName), []⟩)
      let (v, sub) ← parseSubmodel c submodel sub
      let sub ← if sub.ok then checkConstraints id tchecks v [] sub else .ok sub
      return root.append sub

/-- submodel_templates.py 333-348 `parse_submodel_templates`, the loop -/
def checkSubmodels : Res Note → List AVal → Except PyExc (Res Note)
  | root, [] => .ok root
  | root, sm :: sms => do checkSubmodels (← checkSubmodel root sm) sms

/-- submodel_templates.py 333-348 `parse_submodel_templates` -/
def parseSubmodelTemplates (root : Res Note) (env : AVal) : Except PyExc (Res Note) := do
  match ← getAttr env .submodels with
  | .none => return root
  | .list l => checkSubmodels root l
  | _ => throw .typeError

end Verif.Templates
