import Verif.SchemaLemmas
import Verif.Strings

/-!
# Model of the methods in `aas_test_engines/test_cases/v3_0/model.py`

Objects are dynamic values (`AVal`), as in Python: reading an attribute that is missing raises `AttributeError`. Messages of
violations are reduced to the name of the constraint; their formatting is only modelled where it can raise (`self.id_short_path`).
-/

namespace Verif.Aas
open Verif Verif.Parse Verif.DataTypes

/-! ## Python values -/

def pyErr {α : Type} (e : PyExc) : Chk α := .error (.py e)
def violated {α : Type} (text : Str) (level : Level := .error) : Chk α := .error (.violated text level)

/-- the attributes of an object -/
def lookup (f : Fld) : List (Fld × AVal) → Option AVal
  | [] => none
  | (g, v) :: rest => if g = f then some v else lookup f rest

/-- `getattr` -/
def attr (v : AVal) (f : Fld) : Chk AVal :=
  match v with
  | .obj _ attrs =>
    match lookup f attrs with
    | some w => .ok w
    | none => pyErr .attributeError
  | _ => pyErr .attributeError

/-- `v.raw_value` -/
def rawValue : AVal → Chk Str
  | .sfv _ s => .ok s
  | _ => pyErr .attributeError

/-- a `str` -/
def asStr : AVal → Chk Str
  | .str s => .ok s
  | _ => pyErr .typeError

/-- `v is None` -/
def isNone : AVal → Bool
  | .none => true
  | _ => false

/-- `bool(v)`: none of the classes defines `__bool__` or `__len__` -/
def truthy : AVal → Bool
  | .none => false
  | .bool b => b
  | .str s => !s.isEmpty
  | .list l => !l.isEmpty
  | _ => true

/-- iteration; `None` and objects are not iterable -/
def iter : AVal → Chk (List AVal)
  | .list l => .ok l
  | _ => pyErr .typeError

/-- `v[0]` -/
def head (l : List AVal) : Chk AVal :=
  match l with
  | [] => pyErr .indexError
  | x :: _ => .ok x

/-- `v[-1]` -/
def last (l : List AVal) : Chk AVal :=
  match l.getLast? with
  | none => pyErr .indexError
  | some x => .ok x

/-- `v == E.m`, where `m` has the value `s` -/
def enumIs (e : EnumCls) (s : Str) : AVal → Bool
  | .enum e' s' => decide (e' = e ∧ s' = s)
  | _ => false

/-- `v in {E.m, ...}` -/
def enumIn (e : EnumCls) (set : List Str) : AVal → Bool
  | .enum e' s' => decide (e' = e) && set.contains s'
  | _ => false

/-- `v == w` for members of enumerations and `None` -/
def enumEq : AVal → AVal → Bool
  | .enum e s, .enum e' s' => decide (e = e' ∧ s = s')
  | .none, .none => true
  | _, _ => false

def clsOf : AVal → Option Cls
  | .obj c _ => some c
  | _ => none

/-- `for x in l: body(x)` -/
def forM {α : Type} (body : α → Chk Unit) : List α → Chk Unit
  | [] => .ok ()
  | x :: xs => do
    body x
    forM body xs

/-- `any(p(x) for x in l)`; stops at the first hit -/
def anyM {α : Type} (p : α → Chk Bool) : List α → Chk Bool
  | [] => .ok false
  | x :: xs => do
    if ← p x then .ok true else anyM p xs

/-! ## sets of key types (model.py 240-277) -/

def aasSubmodelElements : List Str :=
  [py!"AnnotatedRelationshipElement", py!"BasicEventElement", py!"Blob", py!"Capability", py!"DataElement", py!"Entity",
   py!"EventElement", py!"File", py!"MultiLanguageProperty", py!"Operation", py!"Property", py!"Range", py!"ReferenceElement",
   py!"RelationshipElement", py!"SubmodelElement", py!"SubmodelElementCollection", py!"SubmodelElementList"]
def genericGloballyIdentifiables : List Str := [py!"GlobalReference"]
def aasIdentifiables : List Str := [py!"AssetAdministrationShell", py!"ConceptDescription", py!"Identifiable", py!"Submodel"]
def genericFragmentKeys : List Str := [py!"FragmentReference"]
def globallyIdentifiables : List Str := aasIdentifiables ++ genericGloballyIdentifiables
def fragmentKeys : List Str := genericFragmentKeys ++ aasSubmodelElements

/-! ## functions -/

/-- the member of `DataTypeDefXsd` with the value `s` -/
def xsdOf (s : Str) : Option Xsd :=
  [Xsd.anyURI, .base64Binary, .boolean, .byte, .date, .dateTime, .decimal, .double, .duration, .float, .gDay, .gMonth, .gMonthDay,
   .gYear, .gYearMonth, .hexBinary, .int, .integer, .long, .negativeInteger, .nonNegativeInteger, .nonPositiveInteger,
   .positiveInteger, .short, .string, .time, .unsignedByte, .unsignedInt, .unsignedLong, .unsignedShort].find?
    (fun t => decide (t.name = s))

/-- model.py 53-59 `validate` -/
def validateValue (lim : Option Nat) (value : Str) (valueType : AVal) : Chk Unit :=
  match valueType with
  | .enum .dataTypeDefXsd t =>
    match xsdOf t with
    | none => pyErr .keyError
    | some t =>
      match validate lim t value with
      | .error e => pyErr e
      | .ok true => .ok ()
      | .ok false => violated py!"value"
  | _ => pyErr .keyError

/-- model.py 192-204 `ensure_have_id_shorts` -/
def ensureHaveIdShorts (elements : AVal) : Chk Unit :=
  if isNone elements then .ok ()
  else do
    forM (fun v => do
      if isNone (← attr v .idShort) then violated py!"AASd-117" else .ok ()) (← iter elements)

/-- the loop of `ensure_unique_id_shorts` -/
def uniqueIdShorts : List AVal → List Str → Chk Unit
  | [], _ => .ok ()
  | v :: vs, seen => do
    let s ← attr v .idShort
    if isNone s then uniqueIdShorts vs seen
    else
      let raw ← rawValue s
      if seen.contains raw then violated py!"AASd-022" else uniqueIdShorts vs (raw :: seen)

/-- model.py 794-808 `ensure_unique_id_shorts` -/
def ensureUniqueIdShorts (value : AVal) : Chk Unit :=
  if isNone value then .ok () else do uniqueIdShorts (← iter value) []

/-- model.py 285-286 `Key.__eq__` -/
def keyEq (a b : AVal) : Chk Bool := do
  if enumEq (← attr a .type_) (← attr b .type_) then
    .ok (decide ((← rawValue (← attr a .value)) = (← rawValue (← attr b .value))))
  else .ok false

/-- the loop of `Reference.__eq__` -/
def keysEq : List AVal → List AVal → Chk Bool
  | x :: xs, y :: ys => do
    if ← keyEq x y then keysEq xs ys else .ok false
  | _, _ => .ok true

/-- model.py 407-415 `Reference.__eq__`; `None` has no `type` -/
def refEq (a b : AVal) : Chk Bool := do
  if enumEq (← attr a .type_) (← attr b .type_) then
    let ks ← iter (← attr a .keys)
    let ls ← iter (← attr b .keys)
    if ks.length ≠ ls.length then .ok false else keysEq ks ls
  else .ok false

/-- the type of a key -/
def keyType (k : AVal) : Chk AVal := attr k .type_

/-- `@ {self.id_short_path}` -/
def violatedAt (self : AVal) (text : Str) : Chk Unit := do
  let _ ← attr self .idShortPath
  violated text

/-- model.py 385-390 the loop of AASd-127: each key and its predecessor -/
def check127 : Option AVal → List AVal → Chk Unit
  | _, [] => .ok ()
  | prev, k :: ks => do
    let t ← keyType k
    match prev with
    | some p =>
      if enumIs .keyType py!"FragmentReference" t then
        if enumIn .keyType [py!"File", py!"Blob"] (← keyType p) then check127 (some k) ks else violated py!"AASd-127"
      else check127 (some k) ks
    | none => check127 (some k) ks

/-- model.py 400-405 the loop of AASd-128: each key and its successor -/
def check128 (lim : Option Nat) : List AVal → Chk Unit
  | [] => .ok ()
  | k :: ks => do
    let t ← keyType k
    match ks with
    | n :: _ =>
      if enumIs .keyType py!"SubmodelElementList" t then
        if isBoundedInteger lim (← rawValue (← attr n .value)) (some 0) none then check128 lim ks else violated py!"AASd-128"
      else check128 lim ks
    | [] => .ok ()

/-- model.py 1017-1027 `Operation._check_list`; returns the idShorts seen -/
def checkVariables (self : AVal) : List AVal → List Str → Chk (List Str)
  | [], seen => .ok seen
  | v :: vs, seen => do
    let s ← attr (← attr v .value) .idShort
    if isNone s then checkVariables self vs seen
    else
      let raw ← rawValue s
      if seen.contains raw then do
        let _ ← attr self .idShortPath
        violated py!"AASd-134"
      else checkVariables self vs (raw :: seen)

def checkVariableList (self : AVal) (l : AVal) (seen : List Str) : Chk (List Str) :=
  if isNone l then .ok seen else do checkVariables self (← iter l) seen

/-- model.py 1169-1179 the loop of AASd-114 -/
def check114 (self : AVal) : Option AVal → List AVal → Chk Unit
  | _, [] => .ok ()
  | none, el :: els => do
    let s ← attr el .semanticId
    if truthy s then check114 self (some s) els else check114 self none els
  | some t, el :: els => do
    let s ← attr el .semanticId
    if truthy s then
      if ← refEq s t then check114 self (some t) els else violatedAt self py!"AASd-114"
    else check114 self (some t) els

/-- `qualifier.kind == QualifierKind.TemplateQualifier` for any of the qualifiers -/
def anyTemplateQualifier (qualifiers : AVal) : Chk Bool := do
  anyM (fun q => do .ok (enumIs .qualifierKind py!"TemplateQualifier" (← attr q .kind))) (← iter qualifiers)

/-- `isinstance(v, DataSpecificationIec61360)` -/
def isIec61360 (v : AVal) : Bool := decide (clsOf v = some .dataSpecificationIec61360)

/-- model.py 1333-1343 `_check_iec_61360`. `types` is a set of strings, and members of `DataTypeIec61360` are no strings: `data_type`
is never in it. -/
def checkIec61360 (self : AVal) (categories : List Str) (constraint : Str) : Chk Unit := do
  let cat ← attr self .category
  if isNone cat then .ok ()
  else
    let raw ← rawValue cat
    if !categories.contains raw then .ok ()
    else
      let specs ← attr self .embeddedDataSpecifications
      if isNone specs then .ok ()
      else
        forM (fun ds => do
          let content ← attr ds .dataSpecificationContent
          if isIec61360 content then
            let _ ← attr content .dataType
            violated constraint
          else .ok ()) (← iter specs)

/-- `any(is_bcp_47_for_english(i.language) for i in l)` -/
def anyEnglish (l : AVal) : Chk Bool := do
  anyM (fun i => do .ok (isBcp47ForEnglish (← asStr (← attr i .language)))) (← iter l)

/-- model.py 439-445, the values of `check_reference` -/
def deprecatedSpecs : List Str :=
  [py!"https://adminshell.io/DataSpecificationTemplates/DataSpecificationIec61360/3/0",
   py!"http://adminshell.io/DataSpecificationTemplates/DataSpecificationIec61360/3/0",
   py!"https://adminshell.io/DataSpecificationTemplates/DataSpecificationIEC61360/3/0",
   py!"http://adminshell.io/DataSpecificationTemplates/DataSpecificationIEC61360/3/0"]
def expectedSpec : Str := py!"https://admin-shell.io/DataSpecificationTemplates/DataSpecificationIec61360/3"

/-- model.py 637 -/
def idShortRe : Re := compile py!"[a-zA-Z][a-zA-Z0-9_]*"

def isModelReference (v : AVal) : Bool := enumIs .referenceType py!"ModelReference" v
def isExternalReference (v : AVal) : Bool := enumIs .referenceType py!"ExternalReference" v

/-- The methods `check_...`; `self` is the object, `lim` the digit limit of `int` (see `DataTypes.lean`). The lines are given with
`Method.pyName`. -/
def runMethod (lim : Option Nat) (m : Method) (self : AVal) : Chk Unit :=
  match m with
  | .langStringSet_language => do
    let l ← asStr (← attr self .language)
    if !isBcpLangString l then violated py!"language"
    else if l.length < 1 then violated py!"language" else .ok ()
  | .langStringSet_text => do
    let t ← asStr (← attr self .text)
    if t.length < 1 then violated py!"text"
    else
      match (clsOf self).bind maxLenText with
      | none => pyErr .attributeError
      | some n => if n < t.length then violated py!"text" else .ok ()
  | .reference_aasd_121 => do
    let keys ← attr self .keys
    if !truthy keys then .ok ()
    else if enumIn .keyType globallyIdentifiables (← keyType (← head (← iter keys))) then .ok () else violated py!"AASd-121"
  | .reference_aasd_122 => do
    let t ← attr self .type_
    let keys ← attr self .keys
    if !isExternalReference t || isNone keys then .ok ()
    else if enumIn .keyType genericGloballyIdentifiables (← keyType (← head (← iter keys))) then .ok () else violated py!"AASd-122"
  | .reference_aasd_123 => do
    let t ← attr self .type_
    let keys ← attr self .keys
    if !isModelReference t || isNone keys then .ok ()
    else if enumIn .keyType aasIdentifiables (← keyType (← head (← iter keys))) then .ok () else violated py!"AASd-123"
  | .reference_aasd_124 => do
    let t ← attr self .type_
    let keys ← attr self .keys
    if !isExternalReference t || isNone keys then .ok ()
    else
      let k ← keyType (← last (← iter keys))
      if enumIn .keyType genericGloballyIdentifiables k || enumIn .keyType genericFragmentKeys k then .ok () else violated py!"AASd-124"
  | .reference_aasd_125 => do
    let t ← attr self .type_
    let keys ← attr self .keys
    if !isModelReference t || isNone keys then .ok ()
    else forM (fun k => do
      if enumIn .keyType fragmentKeys (← keyType k) then .ok () else violated py!"AASd-125") (← iter keys).tail
  | .reference_aasd_126 => do
    let t ← attr self .type_
    let keys ← attr self .keys
    if !isModelReference t || isNone keys then .ok ()
    else
      let l ← iter keys
      if l.length ≤ 1 then .ok ()
      else forM (fun k => do
        if enumIn .keyType genericFragmentKeys (← keyType k) then violated py!"AASd-126" else .ok ()) l.dropLast
  | .reference_aasd_127 => do
    let t ← attr self .type_
    let keys ← attr self .keys
    if !isModelReference t || isNone keys then .ok ()
    else
      let l ← iter keys
      if l.length ≤ 1 then .ok () else check127 none l
  | .reference_aasd_128 => do
    let t ← attr self .type_
    let keys ← attr self .keys
    if !isModelReference t || isNone keys then .ok () else check128 lim (← iter keys)
  | .embeddedDataSpecification_reference => do
    let keys ← iter (← attr (← attr self .dataSpecification) .keys)
    if keys.length ≠ 1 then violated py!"dataSpecification" .warning
    else
      let key ← rawValue (← attr (← head keys) .value)
      if deprecatedSpecs.contains key then violated py!"dataSpecification" .warning
      else if key ≠ expectedSpec then violated py!"dataSpecification" .warning else .ok ()
  | .dataSpecificationIec61360_aasc_3a_002 => do
    if ← anyEnglish (← attr self .preferredName) then .ok () else violated py!"AASc-3a-002"
  | .dataSpecificationIec61360_aasc_3a_009 => do
    let t ← attr self .dataType
    if enumIn .dataTypeIec61360
        [py!"INTEGER_MEASURE", py!"REAL_MEASURE", py!"RATIONAL_MEASURE", py!"INTEGER_CURRENCY", py!"REAL_CURRENCY"] t then
      let unit ← attr self .unit
      let unitId ← attr self .unitId
      if isNone unit && isNone unitId then violated py!"AASc-3a-009" else .ok ()
    else .ok ()
  | .dataSpecificationIec61360_aasc_3a_010 => do
    let value ← attr self .value
    let valueList ← attr self .valueList
    if !isNone value && !isNone valueList then violated py!"AASc-3a-010" else .ok ()
  | .hasSemantics_aasd_118 => do
    let sup ← attr self .supplementalSemanticIds
    let sem ← attr self .semanticId
    if !isNone sup && isNone sem then violated py!"AASd-118" else .ok ()
  | .extension_value_type => do
    let value ← attr self .value
    let valueType ← attr self .valueType
    if truthy value && truthy valueType then validateValue lim (← rawValue value) valueType else .ok ()
  | .referable_constraint_aasd_002 => do
    let s ← attr self .idShort
    if truthy s then
      if Re.fullmatch idShortRe (← rawValue s) then .ok () else violated py!"AASd-002"
    else .ok ()
  | .administrativeInformation_constraint_aasd_005 => do
    let revision ← attr self .revision
    let version ← attr self .version
    if !isNone revision && isNone version then violated py!"AASd-005" else .ok ()
  | .qualifier_aasd_006 => .ok ()
  | .qualifier_aasd_020 => .ok ()
  | .qualifier_value_type => do
    let value ← attr self .value
    if truthy value then validateValue lim (← rawValue value) (← attr self .valueType) else .ok ()
  | .specificAssetId_aasd_133 => do
    let ref ← attr self .externalSubjectId
    if truthy ref then
      if isExternalReference (← attr ref .type_) then .ok () else violated py!"AASd-133"
    else .ok ()
  | .assetInformation_aasd_131 => do
    let g ← attr self .globalAssetId
    let s ← attr self .specificAssetIds
    if !truthy g && !truthy s then violated py!"AASd-131" else .ok ()
  | .assetInformation_aasd_116 => do
    let ids ← attr self .specificAssetIds
    if isNone ids then .ok ()
    else forM (fun i => do
      if (← rawValue (← attr i .name)) = py!"globalAssetId" then violated py!"AASd-116" else .ok ()) (← iter ids)
  | .submodelElement_aasc_3a_050 => .ok ()
  | .dataElement_aasd_090 => do
    let cat ← attr self .category
    if isNone cat then .ok ()
    else if [py!"CONSTANT", py!"PARAMETER", py!"VARIABLE"].contains (← rawValue cat) then .ok () else violatedAt self py!"AASd-090"
  | .annotatedRelationshipElement_aasd_117 => do
    let l ← attr self .annotations
    let _ ← attr self .idShortPath
    ensureHaveIdShorts l
  | .basicEventElement_observed => do
    if isModelReference (← attr (← attr self .observed) .type_) then .ok () else violatedAt self py!"observed"
  | .basicEventElement_message_broker => do
    let m ← attr self .messageBroker
    if truthy m then
      if isModelReference (← attr m .type_) then .ok () else violatedAt self py!"messageBroker"
    else .ok ()
  | .entity_aasd_014 => do
    let t ← attr self .entityType
    let g ← attr self .globalAssetId
    let s ← attr self .specificAssetIds
    if enumIs .entityType py!"SelfManagedEntity" t then
      if isNone g && isNone s then violatedAt self py!"AASd-014" else .ok ()
    else if truthy g || truthy s then violatedAt self py!"AASd-014" else .ok ()
  | .entity_aad_117 => do
    let l ← attr self .statements
    let _ ← attr self .idShortPath
    ensureHaveIdShorts l
  | .multiLanguageProperty_constraint_aasd_012 => .ok ()
  | .operationVariable_aasd_117 => do
    -- the message uses `self.id_short_path`, which operation variables do not have
    if isNone (← attr (← attr self .value) .idShort) then violatedAt self py!"AASd-117" else .ok ()
  | .operation_aasd_134 => do
    let seen ← checkVariableList self (← attr self .inputVariables) []
    let seen ← checkVariableList self (← attr self .outputVariables) seen
    let _ ← checkVariableList self (← attr self .inoutputVariables) seen
    .ok ()
  | .property_aasd_007 => .ok ()
  | .property_value_type => do
    let value ← attr self .value
    if truthy value then
      let _ ← attr self .idShortPath
      validateValue lim (← rawValue value) (← attr self .valueType)
    else .ok ()
  | .range_value_type_min => do
    let value ← attr self .min
    if truthy value then
      let _ ← attr self .idShortPath
      validateValue lim (← rawValue value) (← attr self .valueType)
    else .ok ()
  | .range_value_type_max => do
    let value ← attr self .max
    if truthy value then
      let _ ← attr self .idShortPath
      validateValue lim (← rawValue value) (← attr self .valueType)
    else .ok ()
  | .submodelElementCollection_aasd_022 => do
    let l ← attr self .value
    let _ ← attr self .idShortPath
    ensureUniqueIdShorts l
  | .submodelElementCollection_aasd_117 => do
    let l ← attr self .value
    let _ ← attr self .idShortPath
    ensureHaveIdShorts l
  | .submodelElementList_type_value_list_element => do
    if enumIn .keyType aasSubmodelElements (← attr self .typeValueListElement) then .ok ()
    else violatedAt self py!"typeValueListElement"
  | .submodelElementList_aasd_107 => do
    let value ← attr self .value
    let sem ← attr self .semanticIdListElement
    if !truthy value || !truthy sem then .ok ()
    else forM (fun el => do
      let s ← attr el .semanticId
      if isNone s then .ok ()
      else if ← refEq s sem then .ok () else violatedAt self py!"AASd-107") (← iter value)
  | .submodelElementList_aasd_114 => do
    let value ← attr self .value
    if !truthy value then .ok () else check114 self none (← iter value)
  | .submodelElementList_aasd_115 => .ok ()
  | .submodelElementList_aasd_108 => do
    let value ← attr self .value
    if !truthy value then .ok ()
    else
      let t ← attr self .typeValueListElement
      if !truthy t then .ok ()
      else
        match t with
        | .enum .keyType name =>
          -- model.py 236-237 `matches`
          forM (fun el => do
            if (clsOf el).map Cls.pyName = some name then .ok () else violatedAt self py!"AASd-108") (← iter value)
        | _ => pyErr .attributeError
  | .submodelElementList_aasd_109 => do
    let value ← attr self .value
    if !truthy value then .ok ()
    else forM (fun el => do
      if clsOf el = some .property ∨ clsOf el = some .range then
        let t ← attr self .valueTypeListElement
        if isNone t then violatedAt self py!"AASd-109"
        else if enumEq (← attr el .valueType) t then .ok () else violatedAt self py!"AASd-109"
      else .ok ()) (← iter value)
  | .submodelElementList_aasd_120 => do
    let value ← attr self .value
    if !truthy value then .ok ()
    else forM (fun el => do
      if isNone (← attr el .idShort) then .ok () else violatedAt self py!"AASd-120") (← iter value)
  | .assetAdministrationShell_derived_from => do
    let ref ← attr self .derivedFrom
    if truthy ref then
      -- the message uses `self.id_short_path`, which shells do not have
      if isModelReference (← attr ref .type_) then .ok () else violatedAt self py!"derivedFrom"
    else .ok ()
  | .assetAdministrationShell_submodels => do
    let l ← attr self .submodels
    if truthy l then
      forM (fun i => do
        if isModelReference (← attr i .type_) then .ok () else violatedAt self py!"submodels") (← iter l)
    else .ok ()
  | .submodel_aasd_022 => do ensureUniqueIdShorts (← attr self .submodelElements)
  | .submodel_aasd_117 => do ensureHaveIdShorts (← attr self .submodelElements)
  | .submodel_aasd_119 => do
    let q ← attr self .qualifiers
    if isNone q then .ok ()
    else if ← anyTemplateQualifier q then
      if enumIs .modellingKind py!"Template" (← attr self .kind) then .ok () else violated py!"AASd-119"
    else .ok ()
  | .submodel_aasd_129 => do
    let els ← attr self .submodelElements
    if isNone els then .ok ()
    else forM (fun el => do
      let q ← attr el .qualifiers
      if isNone q then .ok ()
      else if ← anyTemplateQualifier q then
        if enumIs .modellingKind py!"Template" (← attr self .kind) then .ok () else violated py!"AASd-129"
      else .ok ()) (← iter els)
  | .conceptDescription_aasc_3a_004 => checkIec61360 self [py!"PROPERTY", py!"VALUE"] py!"AASc-3a-004"
  | .conceptDescription_aasc_3a_005 => checkIec61360 self [py!"REFERENCE"] py!"AASc-3a-005"
  | .conceptDescription_aasc_3a_006 => checkIec61360 self [py!"DOCUMENT"] py!"AASc-3a-006"
  | .conceptDescription_aasc_3a_007 => do
    let cat ← attr self .category
    if isNone cat then .ok ()
    else if (← rawValue cat) ≠ py!"QUALIFIER_TYPE" then .ok ()
    else
      let specs ← attr self .embeddedDataSpecifications
      if isNone specs then .ok ()
      else forM (fun ds => do
        let content ← attr ds .dataSpecificationContent
        if isIec61360 content then
          if isNone (← attr content .dataType) then violated py!"AASc-3a-007" else .ok ()
        else .ok ()) (← iter specs)
  | .conceptDescription_aasc_3a_008 => do
    let specs ← attr self .embeddedDataSpecifications
    if isNone specs then .ok ()
    else forM (fun ds => do
      let content ← attr ds .dataSpecificationContent
      if isIec61360 content then
        if !isNone (← attr content .value) then .ok ()
        else
          let d ← attr content .definition
          if isNone d then violated py!"AASc-3a-008"
          else if ← anyEnglish d then .ok () else violated py!"AASc-3a-008"
      else .ok ()) (← iter specs)
  | .conceptDescription_aasc_3a_003 => .ok ()

/-- parse.py 193-198 the checks of a class -/
def checks (lim : Option Nat) (c : Cls) : List (AVal → Chk Unit) := (checkTable c).map (runMethod lim)

/-! ## paths (model.py 27-50, 816-820, 1097-1107, 1129-1139, 1271-1284) -/

/-- the token of an element in a collection -/
def nameTok : AVal → Except PyExc Tok
  | .obj _ attrs =>
    match lookup .idShort attrs with
    | none => .error .attributeError
    | some .none => .ok .unnamed
    | some (.sfv _ s) => .ok (.name s)
    -- `None`, numbers and strings only
    | some _ => .error .generic
  | _ => .error .attributeError

/-- the class inherits `_set_path` from `SubmodelElement` -/
def hasSetPath (c : Cls) : Bool := (mro c).contains .submodelElement

mutual
/-- `_set_path` (model.py 819-820, 1103-1107, 1129-1133), as a function -/
def setPath (ri : Option Str) (rid : Str) : List Tok → AVal → Except PyExc AVal
  | p, .obj c attrs => if hasSetPath c then (setPathA ri rid c p attrs).map (.obj c) else .error .attributeError
  | _, _ => .error .attributeError
/-- the attributes: the path of the object, and the children -/
def setPathA (ri : Option Str) (rid : Str) (c : Cls) (p : List Tok) : List (Fld × AVal) → Except PyExc (List (Fld × AVal))
  | [] => .ok []
  | (.idShortPath, _) :: rest => (setPathA ri rid c p rest).map ((.idShortPath, .path ri rid p) :: ·)
  | (.value, .list l) :: rest =>
    if c = .submodelElementCollection then do
      let l ← setPathL ri rid p l
      (setPathA ri rid c p rest).map ((.value, .list l) :: ·)
    else if c = .submodelElementList then do
      let l ← setPathI ri rid p 0 l
      (setPathA ri rid c p rest).map ((.value, .list l) :: ·)
    else (setPathA ri rid c p rest).map ((.value, .list l) :: ·)
  | a :: rest => (setPathA ri rid c p rest).map (a :: ·)
/-- elements of a collection or submodel: the idShort is added to the path -/
def setPathL (ri : Option Str) (rid : Str) (p : List Tok) : List AVal → Except PyExc (List AVal)
  | [] => .ok []
  | v :: vs => do
    let t ← nameTok v
    let v ← setPath ri rid (p ++ [t]) v
    (setPathL ri rid p vs).map (v :: ·)
/-- elements of a list: the index is added to the path -/
def setPathI (ri : Option Str) (rid : Str) (p : List Tok) : Nat → List AVal → Except PyExc (List AVal)
  | _, [] => .ok []
  | i, v :: vs => do
    let v ← setPath ri rid (p ++ [.idx i]) v
    (setPathI ri rid p (i + 1) vs).map (v :: ·)
end

/-- replaces the value of an attribute -/
def setAttr (f : Fld) (w : AVal) : List (Fld × AVal) → List (Fld × AVal)
  | [] => []
  | (g, v) :: rest => if g = f then (g, w) :: rest else (g, v) :: setAttr f w rest

/-- model.py 49 the idShort of the root -/
def rootIdShort : AVal → Option Str
  | .sfv _ s => some s
  | _ => none

/-- model.py 1271-1278 `Submodel.post_parse`. The path keeps a reference to the submodel, of which only the idShort and the id are used;
both do not change any more. -/
def postParseSubmodel (v : AVal) : Except PyExc AVal :=
  match v with
  | .obj c attrs =>
    match lookup .submodelElements attrs, lookup .idShort attrs, lookup .id attrs with
    | some .none, _, _ => .ok v
    | some (.list l), some i, some (.sfv _ rid) =>
      (setPathL (rootIdShort i) rid [] l).map fun l => .obj c (setAttr .submodelElements (.list l) attrs)
    | _, _, _ => .error .attributeError
  | _ => .error .attributeError

mutual
/-- `elements` (model.py 816-817, 1097-1101, 1135-1139) -/
def elements : AVal → List AVal
  | .obj c attrs =>
    .obj c attrs :: (if c = .submodelElementCollection ∨ c = .submodelElementList then elementsA attrs else [])
  | _ => []
/-- the elements below the attribute `value` -/
def elementsA : List (Fld × AVal) → List AVal
  | [] => []
  | (.value, .list l) :: _ => elementsL l
  | _ :: rest => elementsA rest
def elementsL : List AVal → List AVal
  | [] => []
  | v :: vs => elements v ++ elementsL vs
end

/-- model.py 1280-1284 `Submodel.elements` -/
def submodelElements (v : AVal) : List AVal :=
  match v with
  | .obj _ attrs =>
    match lookup .submodelElements attrs with
    | some (.list l) => elementsL l
    | _ => []
  | _ => []

/-! ## the schema -/

/-- the reflected classes of model.py -/
def schema (lim : Option Nat) : Schema Cls EnumCls SfvCls Fld where
  fields := fieldsOf
  abstract := isAbstract
  subclasses := subclassesOf
  className := Cls.pyName
  needsModelType := needsModelTypeOf
  enumValues := enumValuesOf
  construct := construct lim
  postParse
    | .submodel => some postParseSubmodel
    | _ => none

end Verif.Aas
