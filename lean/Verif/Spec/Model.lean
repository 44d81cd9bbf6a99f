import Verif.Model
import Verif.Spec.Strings
import Verif.Spec.Text
import Verif.Spec.Values

/-!
# The constraints of the AAS specification, part 1 (AASd) and part 3a (AASc)

Stated on objects through three accessors, without the methods of the model.
-/

namespace Verif.Spec.Model
open Verif Verif.Parse Verif.Aas Verif.DataTypes

/-! ## access -/

/-- the value of an attribute, `none` if it is not set -/
def get (v : AVal) (f : Fld) : AVal :=
  match v with
  | .obj _ attrs => ((attrs.find? (fun a => decide (a.1 = f))).map (·.2)).getD .none
  | _ => .none

/-- the elements of a list -/
def items : AVal → List AVal
  | .list l => l
  | _ => []

/-- the text of a string or of a member of an enumeration -/
def text : AVal → Str
  | .str s => s
  | .enum _ s => s
  | .sfv _ s => s
  | _ => []

/-- an attribute is set -/
def Set (v : AVal) (f : Fld) : Prop := get v f ≠ .none

/-- the elements of an attribute -/
def elems (v : AVal) (f : Fld) : List AVal := items (get v f)

/-- the text of an attribute -/
def txt (v : AVal) (f : Fld) : Str := text (get v f)

/-- the name of the class of an object -/
def className : AVal → Str
  | .obj c _ => c.pyName
  | _ => []

/-- the idShort, if there is one -/
def idShort? (v : AVal) : Option Str :=
  match get v .idShort with
  | .sfv _ s => some s
  | _ => none

/-- the check reports nothing if the rule holds, and an error for the rule otherwise -/
structure Decides (name : Str) (x : Chk Unit) (rule : Prop) : Prop where
  accepts : rule → x = .ok ()
  reports : ¬ rule → x = .error (.violated name .error)

/-! ## references -/

def submodelElementTypes : List Str :=
  [py!"SubmodelElement", py!"AnnotatedRelationshipElement", py!"RelationshipElement", py!"DataElement", py!"BasicEventElement",
   py!"EventElement", py!"Blob", py!"Capability", py!"Entity", py!"File", py!"MultiLanguageProperty", py!"Operation",
   py!"Property", py!"Range", py!"ReferenceElement", py!"SubmodelElementCollection", py!"SubmodelElementList"]

/-- AAS Identifiables -/
def identifiableTypes : List Str := [py!"Identifiable", py!"AssetAdministrationShell", py!"Submodel", py!"ConceptDescription"]

def ModelRef (r : AVal) : Prop := txt r .type_ = py!"ModelReference"
def ExternalRef (r : AVal) : Prop := txt r .type_ = py!"ExternalReference"

/-- the type of the key at a position -/
def KeyAt (r : AVal) (i : Nat) (t : Str) : Prop := ∃ k, (elems r .keys)[i]? = some k ∧ txt k .type_ = t

/-- AASd-121: the first key is a globally identifiable -/
def AASd121 (r : AVal) : Prop := ∀ t, KeyAt r 0 t → t ∈ identifiableTypes ∨ t = py!"GlobalReference"
/-- AASd-122: for external references, the first key is a generic globally identifiable -/
def AASd122 (r : AVal) : Prop := ExternalRef r → ∀ t, KeyAt r 0 t → t = py!"GlobalReference"
/-- AASd-123: for model references, the first key is an AAS identifiable -/
def AASd123 (r : AVal) : Prop := ModelRef r → ∀ t, KeyAt r 0 t → t ∈ identifiableTypes
/-- AASd-124: for external references, the last key is a generic globally identifiable or a generic fragment key -/
def AASd124 (r : AVal) : Prop := ExternalRef r → ∀ i t, i + 1 = (elems r .keys).length → KeyAt r i t →
  t = py!"GlobalReference" ∨ t = py!"FragmentReference"
/-- AASd-125: for model references, the keys after the first one are fragment keys -/
def AASd125 (r : AVal) : Prop := ModelRef r → ∀ i t, KeyAt r (i + 1) t → t ∈ submodelElementTypes ∨ t = py!"FragmentReference"
/-- AASd-126: for model references, only the last key of several may be a generic fragment key -/
def AASd126 (r : AVal) : Prop := ModelRef r → ∀ i t, i + 1 < (elems r .keys).length → KeyAt r i t → t ≠ py!"FragmentReference"
/-- AASd-127: for model references, a fragment reference that follows another key follows a file or blob -/
def AASd127 (r : AVal) : Prop := ModelRef r → ∀ i t, KeyAt r (i + 1) py!"FragmentReference" → KeyAt r i t →
  t = py!"File" ∨ t = py!"Blob"
/-- AASd-127 with the first key: for model references with several keys, a fragment reference is preceded by a file or blob -/
def AASd127Strict (r : AVal) : Prop := ModelRef r → 1 < (elems r .keys).length → ∀ i, KeyAt r i py!"FragmentReference" →
  ∃ j t, i = j + 1 ∧ KeyAt r j t ∧ (t = py!"File" ∨ t = py!"Blob")
/-- AASd-128: for model references, the value of a key after a submodel element list is a number as accepted by `Number` -/
def AASd128 (Number : Str → Prop) (r : AVal) : Prop := ModelRef r → ∀ i k, KeyAt r i py!"SubmodelElementList" →
  (elems r .keys)[i + 1]? = some k → Number (txt k .value)

/-- type and keys of a reference -/
def refContent (r : AVal) : Str × List (Str × Str) := (txt r .type_, (elems r .keys).map fun k => (txt k .type_, txt k .value))
/-- references are equal if they have the same type and the same keys -/
def SameRef (a b : AVal) : Prop := refContent a = refContent b

/-! ## idShorts -/

/-- AASd-022: the idShorts are unique in their namespace -/
def UniqueIdShorts (l : List AVal) : Prop := (l.filterMap idShort?).Nodup
/-- AASd-117: all have an idShort -/
def HaveIdShorts (l : List AVal) : Prop := ∀ x ∈ l, (idShort? x).isSome
/-- AASd-120: none has an idShort -/
def NoIdShorts (l : List AVal) : Prop := ∀ x ∈ l, idShort? x = none
/-- AASd-134: the idShorts of the values of all variables of an operation are unique -/
def AASd134 (v : AVal) : Prop :=
  UniqueIdShorts ((elems v .inputVariables ++ elems v .outputVariables ++ elems v .inoutputVariables).map (get · .value))
/-- AASd-002: letters, digits and underscores, starting with a letter -/
def IdShortText (s : Str) : Prop := ∃ c t, s = c :: t ∧ IsAlpha c ∧ ∀ x ∈ t, IsAlpha x ∨ IsNum x ∨ x = pc! '_'
def AASd002 (v : AVal) : Prop := ∀ s, idShort? v = some s → IdShortText s

/-! ## lists -/

/-- AASd-107: the semantic ids of the elements are the declared one -/
def AASd107 (v : AVal) : Prop := Set v .semanticIdListElement → ∀ x ∈ elems v .value, Set x .semanticId →
  SameRef (get x .semanticId) (get v .semanticIdListElement)
/-- AASd-114: the semantic ids of the elements are all the same -/
def AASd114 (v : AVal) : Prop := ∀ x ∈ elems v .value, ∀ y ∈ elems v .value, Set x .semanticId → Set y .semanticId →
  SameRef (get x .semanticId) (get y .semanticId)
/-- AASd-108 for concrete types: the elements are of the declared type -/
def AASd108Exact (v : AVal) : Prop := ∀ x ∈ elems v .value, className x = txt v .typeValueListElement
/-- the more special types of elements -/
def specializations (t : Str) : List Str :=
  let dataElements := [py!"Blob", py!"File", py!"MultiLanguageProperty", py!"Property", py!"Range", py!"ReferenceElement"]
  if t = py!"DataElement" then dataElements
  else if t = py!"EventElement" then [py!"BasicEventElement"]
  else if t = py!"RelationshipElement" then [py!"AnnotatedRelationshipElement"]
  else if t = py!"SubmodelElement" then dataElements ++ [py!"BasicEventElement", py!"EventElement", py!"RelationshipElement",
    py!"AnnotatedRelationshipElement", py!"Capability", py!"Entity", py!"Operation", py!"SubmodelElementCollection",
    py!"SubmodelElementList"]
  else []
/-- AASd-108: the elements are of the declared type or of a more special one -/
def AASd108 (v : AVal) : Prop := ∀ x ∈ elems v .value, className x = txt v .typeValueListElement ∨
  className x ∈ specializations (txt v .typeValueListElement)
/-- AASd-109 for the list itself: for properties and ranges, the value type is declared -/
def AASd109Declared (v : AVal) : Prop := txt v .typeValueListElement = py!"Property" ∨ txt v .typeValueListElement = py!"Range" →
  Set v .valueTypeListElement
/-- AASd-109: the value types of properties and ranges are the declared one -/
def AASd109 (v : AVal) : Prop := ∀ x ∈ elems v .value, className x = py!"Property" ∨ className x = py!"Range" →
  Set v .valueTypeListElement ∧ txt x .valueType = txt v .valueTypeListElement
/-- the type of the elements is the type of a submodel element -/
def ElementType (v : AVal) : Prop := txt v .typeValueListElement ∈ submodelElementTypes

/-! ## assets and entities -/

/-- AASd-014: asset ids iff self-managed -/
def AASd014 (v : AVal) : Prop :=
  (txt v .entityType = py!"SelfManagedEntity" → Set v .globalAssetId ∨ Set v .specificAssetIds) ∧
  (txt v .entityType ≠ py!"SelfManagedEntity" → ¬ Set v .globalAssetId ∧ ¬ Set v .specificAssetIds)
/-- AASd-131: a global or specific asset id -/
def AASd131 (v : AVal) : Prop := Set v .globalAssetId ∨ Set v .specificAssetIds
/-- AASd-116, respecting case: no specific asset id is called globalAssetId -/
def AASd116Exact (v : AVal) : Prop := ∀ x ∈ elems v .specificAssetIds, txt x .name ≠ py!"globalAssetId"
/-- AASd-116: globalAssetId (case-insensitive) is a reserved name -/
def AASd116 (v : AVal) : Prop := ∀ x ∈ elems v .specificAssetIds, (txt x .name).map lowerChar ≠ py!"globalassetid"

/-! ## semantics, templates, administration -/

/-- AASd-005: no revision without version -/
def AASd005 (v : AVal) : Prop := Set v .revision → Set v .version
/-- AASd-090: categories of data elements -/
def AASd090 (v : AVal) : Prop := Set v .category → txt v .category ∈ [py!"CONSTANT", py!"PARAMETER", py!"VARIABLE"]
/-- AASd-118: no supplemental semantic id without semantic id -/
def AASd118 (v : AVal) : Prop := Set v .supplementalSemanticIds → Set v .semanticId
/-- a qualifier of a template -/
def TemplateQualified (v : AVal) : Prop := ∃ q ∈ elems v .qualifiers, txt q .kind = py!"TemplateQualifier"
def Template (v : AVal) : Prop := txt v .kind = py!"Template"
/-- AASd-119: only templates have template qualifiers -/
def AASd119 (v : AVal) : Prop := TemplateQualified v → Template v
/-- AASd-129: only elements of templates have template qualifiers; here the elements at the top level -/
def AASd129Top (v : AVal) : Prop := (∃ x ∈ elems v .submodelElements, TemplateQualified x) → Template v
/-- the elements of a submodel, at any depth -/
inductive Within (v : AVal) : AVal → Prop
  | top {x} : x ∈ elems v .submodelElements → Within v x
  | deeper {x y} (f : Fld) : Within v x → f ∈ [Fld.value, .statements, .annotations] → y ∈ elems x f → Within v y
/-- AASd-129: only elements of templates have template qualifiers -/
def AASd129 (v : AVal) : Prop := (∃ x, Within v x ∧ TemplateQualified x) → Template v
/-- AASd-133: the external subject is an external reference -/
def AASd133 (v : AVal) : Prop := Set v .externalSubjectId → ExternalRef (get v .externalSubjectId)
/-- an attribute that must be a model reference, if it is set -/
def ModelRefAt (f : Fld) (v : AVal) : Prop := Set v f → ModelRef (get v f)

/-! ## concept descriptions -/

/-- an English text, as far as the code recognises it (see C26): `en`, `EN` or with subtags, a final line feed is accepted -/
def English (l : List AVal) : Prop := ∃ x ∈ l, OrLineFeed (fun t => EnglishTag t ∧ 10 ∉ t) (txt x .language)
/-- AASc-3a-002: preferred name in English -/
def AASc002 (v : AVal) : Prop := English (elems v .preferredName)
/-- AASc-3a-009: measures and currencies have a unit -/
def AASc009 (v : AVal) : Prop :=
  txt v .dataType ∈ [py!"INTEGER_MEASURE", py!"REAL_MEASURE", py!"RATIONAL_MEASURE", py!"INTEGER_CURRENCY", py!"REAL_CURRENCY"] →
    Set v .unit ∨ Set v .unitId
/-- AASc-3a-010: no value and value list at once -/
def AASc010 (v : AVal) : Prop := ¬ (Set v .value ∧ Set v .valueList)
/-- the IEC 61360 contents of a concept description -/
def IecContent (v c : AVal) : Prop := ∃ ds ∈ elems v .embeddedDataSpecifications, get ds .dataSpecificationContent = c ∧
  className c = py!"DataSpecificationIec61360"
/-- the data type of the contents of a concept description with one of the categories -/
def DataTypeOf (categories types : List Str) (v : AVal) : Prop :=
  Set v .category → txt v .category ∈ categories → ∀ c, IecContent v c → txt c .dataType ∈ types
/-- AASc-3a-004 -/
def AASc004 : AVal → Prop := DataTypeOf [py!"PROPERTY", py!"VALUE"]
  [py!"DATE", py!"STRING", py!"STRING_TRANSLATABLE", py!"INTEGER_MEASURE", py!"INTEGER_COUNT", py!"INTEGER_CURRENCY",
   py!"REAL_MEASURE", py!"REAL_COUNT", py!"REAL_CURRENCY", py!"BOOLEAN", py!"RATIONAL", py!"RATIONAL_MEASURE", py!"TIME",
   py!"TIMESTAMP"]
/-- AASc-3a-005 -/
def AASc005 : AVal → Prop := DataTypeOf [py!"REFERENCE"] [py!"STRING", py!"IRI", py!"IRDI"]
/-- AASc-3a-006 -/
def AASc006 : AVal → Prop := DataTypeOf [py!"DOCUMENT"] [py!"FILE", py!"BLOB", py!"HTML"]
/-- AASc-3a-007: qualifier types have a data type -/
def AASc007 (v : AVal) : Prop := Set v .category → txt v .category = py!"QUALIFIER_TYPE" → ∀ c, IecContent v c → Set c .dataType
/-- AASc-3a-008: definition in English, unless there is a value -/
def AASc008 (v : AVal) : Prop := ∀ c, IecContent v c → Set c .value ∨ English (elems c .definition)
/-- what the code enforces for AASc-3a-004 to 006: no content at all -/
def NoContent (categories : List Str) (v : AVal) : Prop := Set v .category → txt v .category ∈ categories → ∀ c, ¬ IecContent v c

/-! ## values -/

/-- the value of an attribute, if it is set, is accepted as a value of the value type -/
def ValueOk (lim : Option Nat) (f : Fld) (v : AVal) : Prop :=
  Set v f → ∀ t : Xsd, t.name = txt v .valueType → Accepted lim t (txt v f)

/-! ## texts -/

/-- the greatest lengths of texts -/
def textLimit (v : AVal) : Nat :=
  let name := className v
  if name = py!"MultiLanguageNameType" then 128
  else if name = py!"PreferredNameTypeIec61360" then 255
  else if name = py!"ShortNameTypeIec61360" then 18
  else 1023
def TextLength (v : AVal) : Prop := 1 ≤ (txt v .text).length ∧ (txt v .text).length ≤ textLimit v

/-! ## data specifications -/

/-- the id of the IEC 61360 template -/
def RefersToIec61360 (v : AVal) : Prop := ∃ k, elems (get v .dataSpecification) .keys = [k] ∧
  txt k .value = py!"https://admin-shell.io/DataSpecificationTemplates/DataSpecificationIec61360/3"

/-! ## all rules together -/

/-- the language strings -/
def langStrings : List Str := [py!"MultiLanguageNameType", py!"MultiLanguageTextType", py!"PreferredNameTypeIec61360",
  py!"ShortNameTypeIec61360", py!"DefinitionTypeIec61360"]

/-- The object breaks a rule; the rules are listed with the classes they apply to. Where the code is weaker or stronger than the
specification, the rule is that of the code (see C42 to C48). `Number`: the numbers of AASd-128. -/
inductive Broken (lim : Option Nat) (Number : Str → Prop) (v : AVal) : Str → Level → Prop
  | aasd121 : className v = py!"Reference" → ¬ AASd121 v → Broken lim Number v py!"AASd-121" .error
  | aasd122 : className v = py!"Reference" → ¬ AASd122 v → Broken lim Number v py!"AASd-122" .error
  | aasd123 : className v = py!"Reference" → ¬ AASd123 v → Broken lim Number v py!"AASd-123" .error
  | aasd124 : className v = py!"Reference" → ¬ AASd124 v → Broken lim Number v py!"AASd-124" .error
  | aasd125 : className v = py!"Reference" → ¬ AASd125 v → Broken lim Number v py!"AASd-125" .error
  | aasd126 : className v = py!"Reference" → ¬ AASd126 v → Broken lim Number v py!"AASd-126" .error
  | aasd127 : className v = py!"Reference" → ¬ AASd127 v → Broken lim Number v py!"AASd-127" .error
  | aasd128 : className v = py!"Reference" → ¬ AASd128 Number v → Broken lim Number v py!"AASd-128" .error
  | language : className v ∈ langStrings → ¬ OrLineFeed LanguageTagExactCase (txt v .language) → Broken lim Number v py!"language" .error
  | text : className v ∈ langStrings → ¬ TextLength v → Broken lim Number v py!"text" .error
  | dataSpecification : className v = py!"EmbeddedDataSpecification" → ¬ RefersToIec61360 v →
      Broken lim Number v py!"dataSpecification" .warning
  | aasc002 : className v = py!"DataSpecificationIec61360" → ¬ AASc002 v → Broken lim Number v py!"AASc-3a-002" .error
  | aasc009 : className v = py!"DataSpecificationIec61360" → ¬ AASc009 v → Broken lim Number v py!"AASc-3a-009" .error
  | aasc010 : className v = py!"DataSpecificationIec61360" → ¬ AASc010 v → Broken lim Number v py!"AASc-3a-010" .error
  | aasd118 : ¬ AASd118 v → Broken lim Number v py!"AASd-118" .error
  | aasd002 : ¬ AASd002 v → Broken lim Number v py!"AASd-002" .error
  | aasd090 : className v ∈ specializations py!"DataElement" → ¬ AASd090 v → Broken lim Number v py!"AASd-090" .error
  | value : className v ∈ [py!"Extension", py!"Qualifier", py!"Property"] → ¬ ValueOk lim .value v → Broken lim Number v py!"value" .error
  | min : className v = py!"Range" → ¬ ValueOk lim .min v → Broken lim Number v py!"value" .error
  | max : className v = py!"Range" → ¬ ValueOk lim .max v → Broken lim Number v py!"value" .error
  | aasd005 : className v = py!"AdministrativeInformation" → ¬ AASd005 v → Broken lim Number v py!"AASd-005" .error
  | aasd133 : className v = py!"SpecificAssetId" → ¬ AASd133 v → Broken lim Number v py!"AASd-133" .error
  | aasd131 : className v = py!"AssetInformation" → ¬ AASd131 v → Broken lim Number v py!"AASd-131" .error
  | aasd116 : className v = py!"AssetInformation" → ¬ AASd116Exact v → Broken lim Number v py!"AASd-116" .error
  | annotations : className v = py!"AnnotatedRelationshipElement" → ¬ HaveIdShorts (elems v .annotations) →
      Broken lim Number v py!"AASd-117" .error
  | statements : className v = py!"Entity" → ¬ HaveIdShorts (elems v .statements) → Broken lim Number v py!"AASd-117" .error
  | collection : className v = py!"SubmodelElementCollection" → ¬ HaveIdShorts (elems v .value) → Broken lim Number v py!"AASd-117" .error
  | submodel : className v = py!"Submodel" → ¬ HaveIdShorts (elems v .submodelElements) → Broken lim Number v py!"AASd-117" .error
  | uniqueCollection : className v = py!"SubmodelElementCollection" → ¬ UniqueIdShorts (elems v .value) →
      Broken lim Number v py!"AASd-022" .error
  | uniqueSubmodel : className v = py!"Submodel" → ¬ UniqueIdShorts (elems v .submodelElements) → Broken lim Number v py!"AASd-022" .error
  | aasd120 : className v = py!"SubmodelElementList" → ¬ NoIdShorts (elems v .value) → Broken lim Number v py!"AASd-120" .error
  | aasd134 : className v = py!"Operation" → ¬ AASd134 v → Broken lim Number v py!"AASd-134" .error
  | observed : className v = py!"BasicEventElement" → ¬ ModelRef (get v .observed) → Broken lim Number v py!"observed" .error
  | messageBroker : className v = py!"BasicEventElement" → ¬ ModelRefAt .messageBroker v → Broken lim Number v py!"messageBroker" .error
  | aasd014 : className v = py!"Entity" → ¬ AASd014 v → Broken lim Number v py!"AASd-014" .error
  | elementType : className v = py!"SubmodelElementList" → ¬ ElementType v → Broken lim Number v py!"typeValueListElement" .error
  | aasd107 : className v = py!"SubmodelElementList" → ¬ AASd107 v → Broken lim Number v py!"AASd-107" .error
  | aasd108 : className v = py!"SubmodelElementList" → ¬ AASd108Exact v → Broken lim Number v py!"AASd-108" .error
  | aasd109 : className v = py!"SubmodelElementList" → ¬ AASd109 v → Broken lim Number v py!"AASd-109" .error
  | aasd114 : className v = py!"SubmodelElementList" → ¬ AASd114 v → Broken lim Number v py!"AASd-114" .error
  | aasd119 : className v = py!"Submodel" → ¬ AASd119 v → Broken lim Number v py!"AASd-119" .error
  | aasd129 : className v = py!"Submodel" → ¬ AASd129Top v → Broken lim Number v py!"AASd-129" .error
  | aasc004 : className v = py!"ConceptDescription" → ¬ NoContent [py!"PROPERTY", py!"VALUE"] v → Broken lim Number v py!"AASc-3a-004" .error
  | aasc005 : className v = py!"ConceptDescription" → ¬ NoContent [py!"REFERENCE"] v → Broken lim Number v py!"AASc-3a-005" .error
  | aasc006 : className v = py!"ConceptDescription" → ¬ NoContent [py!"DOCUMENT"] v → Broken lim Number v py!"AASc-3a-006" .error
  | aasc007 : className v = py!"ConceptDescription" → ¬ AASc007 v → Broken lim Number v py!"AASc-3a-007" .error
  | aasc008 : className v = py!"ConceptDescription" → ¬ AASc008 v → Broken lim Number v py!"AASc-3a-008" .error

/-- the value is a date whose year has too many digits: its check raises -/
def ValueRaises (lim : Option Nat) (f : Fld) (v : AVal) : Prop :=
  Set v f ∧ ∃ t : Xsd, t.name = txt v .valueType ∧ ValueFails lim t (txt v f)

/-- an exception that a check of a typed object may raise -/
def Mishap (e : PyExc) : Prop := e = .attributeError ∨ e = .typeError ∨ e = .valueError

/-- The checks of the object raise something else than a violation. -/
inductive Crashes (lim : Option Nat) (v : AVal) : Prop
  | value : className v ∈ [py!"Extension", py!"Qualifier", py!"Property"] → ValueRaises lim .value v → Crashes lim v
  | min : className v = py!"Range" → ValueRaises lim .min v → Crashes lim v
  | max : className v = py!"Range" → ValueRaises lim .max v → Crashes lim v
  | operationVariable : className v = py!"OperationVariable" → idShort? (get v .value) = none → Crashes lim v
  | derivedFrom : className v = py!"AssetAdministrationShell" → ¬ ModelRefAt .derivedFrom v → Crashes lim v
  | submodels : className v = py!"AssetAdministrationShell" → ¬ (∀ r ∈ elems v .submodels, ModelRef r) → Crashes lim v

end Verif.Spec.Model
