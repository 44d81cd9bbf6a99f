import Verif.Paths

/-!
# The texts of the messages of model.py

`tellMethod` is `runMethod` (`Model.lean`) with the texts of the exceptions instead of the names of the rules: the lines that the user
reads. The loops count the elements as `enumerate` does. Texts that cannot be built, because an object lacks an attribute, raise as in
`runMethod`; the texts of references and paths are total functions, and the values that the parser never returns give an empty text.
-/

namespace Verif.Aas
open Verif Verif.Parse Verif.DataTypes

/-- the value of an attribute, if there is one -/
def orNone : Chk AVal → AVal
  | .ok v => v
  | .error _ => .none

/-- `x.raw_value` and `x.value` for strings and members of enumerations -/
def valueStr : AVal → Str
  | .str s => s
  | .enum _ s => s
  | .sfv _ s => s
  | _ => []

/-- reflect.py 89-93 and model.py 39-50 `str` of a path; `None` if the path was not set -/
def pathShown : AVal → Str
  | .path ri rid toks => pathStr ri rid toks
  | .none => py!"None"
  | _ => []

/-- model.py 288-289 `Key.__str__` -/
def keyStr (k : AVal) : Str := valueStr (orNone (attr k .value))

/-- model.py 417-421 `Reference.__str__` -/
def refStr (r : AVal) : Str :=
  valueStr (orNone (attr r .type_)) ++
    match orNone (attr r .keys) with
    | .list (k :: ks) => Py.join py!"/" ((k :: ks).map keyStr)
    | _ => []

/-- `raise CheckConstraintException(f"... @ {self.id_short_path}")` -/
def tellAt (self : AVal) (text : Str) : Chk Unit := do
  let p ← attr self .idShortPath
  violated (text ++ py!" @ " ++ pathShown p)

/-- `if path: msg += f" @ {path}"`; paths are never false -/
def pathNote (path : AVal) : Str := if isNone path then [] else py!" @ " ++ pathShown path

/-- `for idx, x in enumerate(l, i): body(idx, x)` -/
def forI {α : Type} (body : Nat → α → Chk Unit) : Nat → List α → Chk Unit
  | _, [] => .ok ()
  | i, x :: xs => do
    body i x
    forI body (i + 1) xs

/-- model.py 53-59 `validate` -/
def tellValue (lim : Option Nat) (value : Str) (valueType path : AVal) : Chk Unit :=
  match valueType with
  | .enum .dataTypeDefXsd t =>
    match xsdOf t with
    | none => pyErr .keyError
    | some x =>
      match validate lim x value with
      | .error e => pyErr e
      | .ok true => .ok ()
      | .ok false => violated (py!"Value '" ++ value ++ py!"' is not a '" ++ t ++ py!"'" ++ pathNote path)
  | _ => pyErr .keyError

/-- model.py 192-204 `ensure_have_id_shorts` -/
def tellHaveIdShorts (elements path : AVal) : Chk Unit :=
  if isNone elements then .ok ()
  else do
    forI (fun idx v => do
      if isNone (← attr v .idShort) then
        violated (py!"Constraint AASd-117 violated: element " ++ Py.natStr idx ++ py!" has no idShort" ++ pathNote path)
      else .ok ()) 0 (← iter elements)

/-- the loop of `ensure_unique_id_shorts` -/
def tellUnique : List AVal → List Str → Chk Unit
  | [], _ => .ok ()
  | v :: vs, seen => do
    let s ← attr v .idShort
    if isNone s then tellUnique vs seen
    else
      let raw ← rawValue s
      if seen.contains raw then violated (py!"AASd-022 violated: Duplicate idShort '" ++ valueStr s ++ py!"'")
      else tellUnique vs (raw :: seen)

/-- model.py 794-808 `ensure_unique_id_shorts` -/
def tellUniqueIdShorts (value : AVal) : Chk Unit :=
  if isNone value then .ok () else do tellUnique (← iter value) []

/-- model.py 385-390 the loop of AASd-127 -/
def tell127 : Nat → Option AVal → List AVal → Chk Unit
  | _, _, [] => .ok ()
  | idx, prev, k :: ks => do
    let t ← keyType k
    match prev with
    | some p =>
      if enumIs .keyType py!"FragmentReference" t then
        if enumIn .keyType [py!"File", py!"Blob"] (← keyType p) then tell127 (idx + 1) (some k) ks
        else violated (py!"Constraint AASd-127 violated: key " ++ Py.natStr idx ++ py!" must be preceded by File or Blob")
      else tell127 (idx + 1) (some k) ks
    | none => tell127 (idx + 1) (some k) ks

/-- model.py 400-405 the loop of AASd-128 -/
def tell128 (lim : Option Nat) : Nat → List AVal → Chk Unit
  | _, [] => .ok ()
  | idx, k :: ks => do
    let t ← keyType k
    match ks with
    | n :: _ =>
      if enumIs .keyType py!"SubmodelElementList" t then
        if isBoundedInteger lim (← rawValue (← attr n .value)) (some 0) none then tell128 lim (idx + 1) ks
        else violated (py!"Constraint AASd-128 violated: key " ++ Py.natStr idx ++ py!" must be followed by an integer")
      else tell128 lim (idx + 1) ks
    | [] => .ok ()

/-- model.py 1017-1027 `Operation._check_list` -/
def tellVariables (self : AVal) : List AVal → List Str → Chk (List Str)
  | [], seen => .ok seen
  | v :: vs, seen => do
    let s ← attr (← attr v .value) .idShort
    if isNone s then tellVariables self vs seen
    else
      let raw ← rawValue s
      if seen.contains raw then do
        let p ← attr self .idShortPath
        violated (py!"Constraint AASd-134 violated: duplicate id short @ " ++ pathShown p)
      else tellVariables self vs (raw :: seen)

def tellVariableList (self : AVal) (l : AVal) (seen : List Str) : Chk (List Str) :=
  if isNone l then .ok seen else do tellVariables self (← iter l) seen

/-- model.py 1169-1179 the loop of AASd-114 -/
def tell114 (self : AVal) : Nat → Option AVal → List AVal → Chk Unit
  | _, _, [] => .ok ()
  | idx, none, el :: els => do
    let s ← attr el .semanticId
    if truthy s then tell114 self (idx + 1) (some s) els else tell114 self (idx + 1) none els
  | idx, some t, el :: els => do
    let s ← attr el .semanticId
    if truthy s then
      if ← refEq s t then tell114 self (idx + 1) (some t) els
      else tellAt self (py!"Constraint AASd-114 violated: Element " ++ Py.natStr idx ++ py!" must have semanticId " ++ refStr t)
    else tell114 self (idx + 1) (some t) els

/-- model.py 1333-1343 `_check_iec_61360` -/
def tellIec61360 (self : AVal) (categories : List Str) (constraint : Str) : Chk Unit := do
  let cat ← attr self .category
  if isNone cat then .ok ()
  else
    let raw ← rawValue cat
    if !categories.contains raw then .ok ()
    else
      let specs ← attr self .embeddedDataSpecifications
      if isNone specs then .ok ()
      else
        forI (fun idx ds => do
          let content ← attr ds .dataSpecificationContent
          if isIec61360 content then
            let _ ← attr content .dataType
            violated (py!"Constraint " ++ constraint ++ py!" violated: embeddedDataSpecifications[" ++ Py.natStr idx ++
              py!"].dataType is invalid")
          else .ok ()) 0 (← iter specs)

/-- The methods `check_...` with their texts; the lines are given with `Method.pyName`. -/
def tellMethod (lim : Option Nat) (m : Method) (self : AVal) : Chk Unit :=
  match m with
  | .langStringSet_language => do
    let l ← asStr (← attr self .language)
    if !isBcpLangString l then
      violated py!"Constraint violated: Property 'language' does not contain a language according to BCP46"
    else if l.length < 1 then violated py!"Constraint violated: Property 'language' must not be empty" else .ok ()
  | .langStringSet_text => do
    let t ← asStr (← attr self .text)
    if t.length < 1 then violated py!"Constraint violated: Property 'text' must not be empty"
    else
      match (clsOf self).bind maxLenText with
      | none => pyErr .attributeError
      | some n =>
        if n < t.length then
          -- there is no closing parenthesis
          violated (py!"Constraint violated: Property 'text' is too long (" ++ Py.natStr t.length ++ py!" > " ++ Py.natStr n)
        else .ok ()
  | .reference_aasd_121 => do
    let keys ← attr self .keys
    if !truthy keys then .ok ()
    else if enumIn .keyType globallyIdentifiables (← keyType (← head (← iter keys))) then .ok ()
    else violated py!"Constraint AASd-121 violated: first key must be one of GloballyIdentifiables"
  | .reference_aasd_122 => do
    let t ← attr self .type_
    let keys ← attr self .keys
    if !isExternalReference t || isNone keys then .ok ()
    else if enumIn .keyType genericGloballyIdentifiables (← keyType (← head (← iter keys))) then .ok ()
    else violated py!"Constraint AASd-122 violated: first key must be one of GenericGloballyIdentifiables"
  | .reference_aasd_123 => do
    let t ← attr self .type_
    let keys ← attr self .keys
    if !isModelReference t || isNone keys then .ok ()
    else if enumIn .keyType aasIdentifiables (← keyType (← head (← iter keys))) then .ok ()
    else violated py!"Constraint AASd-123 violated: first key must be one of AasIdentifiables"
  | .reference_aasd_124 => do
    let t ← attr self .type_
    let keys ← attr self .keys
    if !isExternalReference t || isNone keys then .ok ()
    else
      let k ← keyType (← last (← iter keys))
      if enumIn .keyType genericGloballyIdentifiables k || enumIn .keyType genericFragmentKeys k then .ok ()
      else violated py!"Constraint AASd-124 violated: last key must one of GenericGloballyIdentifiables or GenericFragmentKeys"
  | .reference_aasd_125 => do
    let t ← attr self .type_
    let keys ← attr self .keys
    if !isModelReference t || isNone keys then .ok ()
    else forI (fun idx k => do
      if enumIn .keyType fragmentKeys (← keyType k) then .ok ()
      else violated (py!"Constraint AASd-125 violated: key " ++ Py.natStr idx ++ py!" must be a FragmentKey")) 0 (← iter keys).tail
  | .reference_aasd_126 => do
    let t ← attr self .type_
    let keys ← attr self .keys
    if !isModelReference t || isNone keys then .ok ()
    else
      let l ← iter keys
      if l.length ≤ 1 then .ok ()
      else forI (fun idx k => do
        if enumIn .keyType genericFragmentKeys (← keyType k) then
          violated (py!"Constraint AASd-126 violated: key " ++ Py.natStr idx ++ py!" must not be a GenericFragmentKey")
        else .ok ()) 0 l.dropLast
  | .reference_aasd_127 => do
    let t ← attr self .type_
    let keys ← attr self .keys
    if !isModelReference t || isNone keys then .ok ()
    else
      let l ← iter keys
      if l.length ≤ 1 then .ok () else tell127 0 none l
  | .reference_aasd_128 => do
    let t ← attr self .type_
    let keys ← attr self .keys
    if !isModelReference t || isNone keys then .ok () else tell128 lim 0 (← iter keys)
  | .embeddedDataSpecification_reference => do
    let keys ← iter (← attr (← attr self .dataSpecification) .keys)
    if keys.length ≠ 1 then violated py!"dataSpecification/keys must have exactly one entry" .warning
    else
      let key ← rawValue (← attr (← head keys) .value)
      if deprecatedSpecs.contains key then
        violated (py!"dataSpecification/keys[0] has deprecated value " ++ key ++ py!", expected " ++ expectedSpec) .warning
      else if key ≠ expectedSpec then
        violated (py!"dataSpecification/keys[0] has unexpected value " ++ key ++ py!", expected " ++ expectedSpec) .warning
      else .ok ()
  | .dataSpecificationIec61360_aasc_3a_002 => do
    if ← anyEnglish (← attr self .preferredName) then .ok ()
    else violated py!"Constraint AASc-3a-002 violated: English language is missing"
  | .dataSpecificationIec61360_aasc_3a_009 => do
    let t ← attr self .dataType
    if enumIn .dataTypeIec61360
        [py!"INTEGER_MEASURE", py!"REAL_MEASURE", py!"RATIONAL_MEASURE", py!"INTEGER_CURRENCY", py!"REAL_CURRENCY"] t then
      let unit ← attr self .unit
      let unitId ← attr self .unitId
      if isNone unit && isNone unitId then violated py!"Constraint AASc-3a-009 violated: neither unit nor unit_id is set" else .ok ()
    else .ok ()
  | .dataSpecificationIec61360_aasc_3a_010 => do
    let value ← attr self .value
    let valueList ← attr self .valueList
    if !isNone value && !isNone valueList then
      violated py!"Constraint AASc-3a-010 violated: value and value_list cannot be set simultaneously"
    else .ok ()
  | .hasSemantics_aasd_118 => do
    let sup ← attr self .supplementalSemanticIds
    let sem ← attr self .semanticId
    if !isNone sup && isNone sem then
      violated py!"Constraint AASd-118 violated: supplementalSemanticId is given but semanticId is missing"
    else .ok ()
  | .extension_value_type => do
    let value ← attr self .value
    let valueType ← attr self .valueType
    if truthy value && truthy valueType then tellValue lim (← rawValue value) valueType .none else .ok ()
  | .referable_constraint_aasd_002 => do
    let s ← attr self .idShort
    if truthy s then
      if Re.fullmatch idShortRe (← rawValue s) then .ok ()
      else violated py!"Constraint AASd-002 violated: idShort shall match [a-zA-Z][a-zA-Z0-9_]*"
    else .ok ()
  | .administrativeInformation_constraint_aasd_005 => do
    let revision ← attr self .revision
    let version ← attr self .version
    if !isNone revision && isNone version then violated py!"Constraint AASd-005 violated: version is given but no revision" else .ok ()
  | .qualifier_aasd_006 => .ok ()
  | .qualifier_aasd_020 => .ok ()
  | .qualifier_value_type => do
    let value ← attr self .value
    if truthy value then tellValue lim (← rawValue value) (← attr self .valueType) .none else .ok ()
  | .specificAssetId_aasd_133 => do
    let ref ← attr self .externalSubjectId
    if truthy ref then
      if isExternalReference (← attr ref .type_) then .ok ()
      else violated py!"Constraint AASd-133 violated: type must be ExternalReference"
    else .ok ()
  | .assetInformation_aasd_131 => do
    let g ← attr self .globalAssetId
    let s ← attr self .specificAssetIds
    if !truthy g && !truthy s then violated py!"Constraint AASd-131 violated: neither globalAssetId nor specificAssetIds given" else .ok ()
  | .assetInformation_aasd_116 => do
    let ids ← attr self .specificAssetIds
    if isNone ids then .ok ()
    else forI (fun idx i => do
      if (← rawValue (← attr i .name)) = py!"globalAssetId" then
        violated (py!"Constraint AASd-116 violated: specific asset id " ++ Py.natStr idx ++ py!" must not have name 'globalAssetId'")
      else .ok ()) 0 (← iter ids)
  | .submodelElement_aasc_3a_050 => .ok ()
  | .dataElement_aasd_090 => do
    let cat ← attr self .category
    if isNone cat then .ok ()
    else
      let raw ← rawValue cat
      if [py!"CONSTANT", py!"PARAMETER", py!"VARIABLE"].contains raw then .ok ()
      else tellAt self (py!"Constraint AASd-090 violated: category " ++ raw ++
        py!" is not one of ['CONSTANT', 'PARAMETER', 'VARIABLE']")
  | .annotatedRelationshipElement_aasd_117 => do
    let l ← attr self .annotations
    tellHaveIdShorts l (← attr self .idShortPath)
  | .basicEventElement_observed => do
    if isModelReference (← attr (← attr self .observed) .type_) then .ok ()
    else tellAt self py!"Constraint violated: Property 'observed' must be a model reference"
  | .basicEventElement_message_broker => do
    let m ← attr self .messageBroker
    if truthy m then
      if isModelReference (← attr m .type_) then .ok ()
      else tellAt self py!"Constraint violated: Property 'observed' must be a model reference"
    else .ok ()
  | .entity_aasd_014 => do
    let t ← attr self .entityType
    let g ← attr self .globalAssetId
    let s ← attr self .specificAssetIds
    if enumIs .entityType py!"SelfManagedEntity" t then
      if isNone g && isNone s then
        tellAt self py!"Constraint AASd-014 violated: entity is self-manged but neither globalAssetId nor specificAssetId are set"
      else .ok ()
    else if truthy g || truthy s then
      tellAt self py!"Constraint AASd-014 violated: entity is co-manged but either globalAssetId or specificAssetId are set"
    else .ok ()
  | .entity_aad_117 => do
    let l ← attr self .statements
    tellHaveIdShorts l (← attr self .idShortPath)
  | .multiLanguageProperty_constraint_aasd_012 => .ok ()
  | .operationVariable_aasd_117 => do
    if isNone (← attr (← attr self .value) .idShort) then tellAt self py!"Constraint AASd-117 is violated: idShort missing" else .ok ()
  | .operation_aasd_134 => do
    let seen ← tellVariableList self (← attr self .inputVariables) []
    let seen ← tellVariableList self (← attr self .outputVariables) seen
    let _ ← tellVariableList self (← attr self .inoutputVariables) seen
    .ok ()
  | .property_aasd_007 => .ok ()
  | .property_value_type => do
    let value ← attr self .value
    if truthy value then
      let p ← attr self .idShortPath
      tellValue lim (← rawValue value) (← attr self .valueType) p
    else .ok ()
  | .range_value_type_min => do
    let value ← attr self .min
    if truthy value then
      let p ← attr self .idShortPath
      tellValue lim (← rawValue value) (← attr self .valueType) p
    else .ok ()
  | .range_value_type_max => do
    let value ← attr self .max
    if truthy value then
      let p ← attr self .idShortPath
      tellValue lim (← rawValue value) (← attr self .valueType) p
    else .ok ()
  | .submodelElementCollection_aasd_022 => do
    let l ← attr self .value
    let _ ← attr self .idShortPath
    tellUniqueIdShorts l
  | .submodelElementCollection_aasd_117 => do
    let l ← attr self .value
    tellHaveIdShorts l (← attr self .idShortPath)
  | .submodelElementList_type_value_list_element => do
    if enumIn .keyType aasSubmodelElements (← attr self .typeValueListElement) then .ok ()
    else tellAt self py!"Constraint violated: type_value_list_element must be a AasSubmodelElement"
  | .submodelElementList_aasd_107 => do
    let value ← attr self .value
    let sem ← attr self .semanticIdListElement
    if !truthy value || !truthy sem then .ok ()
    else forI (fun idx el => do
      let s ← attr el .semanticId
      if isNone s then .ok ()
      else if ← refEq s sem then .ok ()
      else tellAt self (py!"Constraint AASd-107 violated: Element " ++ Py.natStr idx ++ py!" has invalid semantic id " ++ refStr s ++
        py!", should be " ++ refStr sem)) 0 (← iter value)
  | .submodelElementList_aasd_114 => do
    let value ← attr self .value
    if !truthy value then .ok () else tell114 self 0 none (← iter value)
  | .submodelElementList_aasd_115 => .ok ()
  | .submodelElementList_aasd_108 => do
    let value ← attr self .value
    if !truthy value then .ok ()
    else
      let t ← attr self .typeValueListElement
      if !truthy t then .ok ()
      else
        match t with
        | .enum .keyType name =>
          forI (fun idx el => do
            if (clsOf el).map Cls.pyName = some name then .ok ()
            else tellAt self (py!"Constraint AASd-108 violated: Element " ++ Py.natStr idx ++ py!" must be " ++ name))
            0 (← iter value)
        | _ => pyErr .attributeError
  | .submodelElementList_aasd_109 => do
    let value ← attr self .value
    if !truthy value then .ok ()
    else forI (fun idx el => do
      if clsOf el = some .property ∨ clsOf el = some .range then
        let t ← attr self .valueTypeListElement
        if isNone t then
          tellAt self py!"Constraint AASd-109 violated: valueTypeListElement must be set since there are Properties/Ranges"
        else if enumEq (← attr el .valueType) t then .ok ()
        else tellAt self (py!"Constraint AASd-109 violated: value type of element " ++ Py.natStr idx ++
          py!" does not match valueTypeListElement")
      else .ok ()) 0 (← iter value)
  | .submodelElementList_aasd_120 => do
    let value ← attr self .value
    if !truthy value then .ok ()
    else forI (fun idx el => do
      if isNone (← attr el .idShort) then .ok ()
      else tellAt self (py!"Constraint AASd-120 violated: element " ++ Py.natStr idx ++ py!" must not have an idShort")) 0 (← iter value)
  | .assetAdministrationShell_derived_from => do
    let ref ← attr self .derivedFrom
    if truthy ref then
      if isModelReference (← attr ref .type_) then .ok ()
      else tellAt self py!"Constraint violated: derivedFrom must be a model reference"
    else .ok ()
  | .assetAdministrationShell_submodels => do
    let l ← attr self .submodels
    if truthy l then
      forM (fun i => do
        if isModelReference (← attr i .type_) then .ok ()
        else tellAt self py!"Constraint violated: submodels must contain only model references") (← iter l)
    else .ok ()
  | .submodel_aasd_022 => do tellUniqueIdShorts (← attr self .submodelElements)
  | .submodel_aasd_117 => do tellHaveIdShorts (← attr self .submodelElements) .none
  | .submodel_aasd_119 => do
    let q ← attr self .qualifiers
    if isNone q then .ok ()
    else if ← anyTemplateQualifier q then
      if enumIs .modellingKind py!"Template" (← attr self .kind) then .ok ()
      else violated py!"Constraint AASd-129 violated: kind must be Template as at least one qualifier is a TemplateQualifier"
    else .ok ()
  | .submodel_aasd_129 => do
    let els ← attr self .submodelElements
    if isNone els then .ok ()
    else forM (fun el => do
      let q ← attr el .qualifiers
      if isNone q then .ok ()
      else if ← anyTemplateQualifier q then
        if enumIs .modellingKind py!"Template" (← attr self .kind) then .ok ()
        else violated py!"Constraint AASd-129 violated: kind must be Template as at least one qualifier is a TemplateQualifier"
      else .ok ()) (← iter els)
  | .conceptDescription_aasc_3a_004 => tellIec61360 self [py!"PROPERTY", py!"VALUE"] py!"AASc-3a-004"
  | .conceptDescription_aasc_3a_005 => tellIec61360 self [py!"REFERENCE"] py!"AASc-3a-005"
  | .conceptDescription_aasc_3a_006 => tellIec61360 self [py!"DOCUMENT"] py!"AASc-3a-006"
  | .conceptDescription_aasc_3a_007 => do
    let cat ← attr self .category
    if isNone cat then .ok ()
    else if (← rawValue cat) ≠ py!"QUALIFIER_TYPE" then .ok ()
    else
      let specs ← attr self .embeddedDataSpecifications
      if isNone specs then .ok ()
      else forI (fun idx ds => do
        let content ← attr ds .dataSpecificationContent
        if isIec61360 content then
          if isNone (← attr content .dataType) then
            violated (py!"Constraint AASc-3a-007 violated: embeddedDataSpecifications[" ++ Py.natStr idx ++ py!"].dataType is missing")
          else .ok ()
        else .ok ()) 0 (← iter specs)
  | .conceptDescription_aasc_3a_008 => do
    let specs ← attr self .embeddedDataSpecifications
    if isNone specs then .ok ()
    else forI (fun idx ds => do
      let content ← attr ds .dataSpecificationContent
      if isIec61360 content then
        if !isNone (← attr content .value) then .ok ()
        else
          let d ← attr content .definition
          if isNone d then
            violated (py!"Constraint AASc-3a-008 violated: embeddedDataSpecifications[" ++ Py.natStr idx ++ py!"].definition is missing")
          else if ← anyEnglish d then .ok ()
          else violated (py!"Constraint AASc-3a-008 violated: embeddedDataSpecifications[" ++ Py.natStr idx ++
            py!"].definition.language is missing English.")
      else .ok ()) 0 (← iter specs)
  | .conceptDescription_aasc_3a_003 => .ok ()

/-- parse.py 193-198 the checks of a class, with their texts -/
def tells (lim : Option Nat) (c : Cls) : List (AVal → Chk Unit) := (checkTable c).map (tellMethod lim)

end Verif.Aas
