import Verif.Spec.Model
import Verif.Paths

/-!
# What the texts of messages claim

`Means lim Number v t l`: the text `t`, read as English, is true of the object `v` and has the level `l`. The texts are written out here
again, with the numbers and values they show. Positions are counted from 0, as everywhere in the messages.
-/

namespace Verif.Spec.Model
open Verif Verif.Parse Verif.Aas Verif.DataTypes

/-- the place of an element, `None` if it does not know its place (see C49 for the text of a path) -/
def place (v : AVal) : Str :=
  match get v .idShortPath with
  | .path ri rid toks => pathStr ri rid toks
  | _ => py!"None"

/-- a place is shown, or none if the element does not know its place -/
inductive Placed (v : AVal) : Str → Prop
  | nowhere : get v .idShortPath = .none → Placed v []
  | there : get v .idShortPath ≠ .none → Placed v (py!" @ " ++ place v)

/-- a reference is shown by its type, followed by the values of its keys -/
def shownRef (r : AVal) : Str := txt r .type_ ++ Py.join py!"/" ((elems r .keys).map (txt · .value))

/-- the IEC 61360 content at a position -/
def ContentAt (v : AVal) (i : Nat) (c : AVal) : Prop := ∃ ds, (elems v .embeddedDataSpecifications)[i]? = some ds ∧
  get ds .dataSpecificationContent = c ∧ className c = py!"DataSpecificationIec61360"

/-- the data types that are allowed by AASc-3a-004 to 006, with the categories -/
inductive TypesFor : Str → List Str → List Str → Prop
  | c004 : TypesFor py!"AASc-3a-004" [py!"PROPERTY", py!"VALUE"]
      [py!"DATE", py!"STRING", py!"STRING_TRANSLATABLE", py!"INTEGER_MEASURE", py!"INTEGER_COUNT", py!"INTEGER_CURRENCY",
       py!"REAL_MEASURE", py!"REAL_COUNT", py!"REAL_CURRENCY", py!"BOOLEAN", py!"RATIONAL", py!"RATIONAL_MEASURE", py!"TIME",
       py!"TIMESTAMP"]
  | c005 : TypesFor py!"AASc-3a-005" [py!"REFERENCE"] [py!"STRING", py!"IRI", py!"IRDI"]
  | c006 : TypesFor py!"AASc-3a-006" [py!"DOCUMENT"] [py!"FILE", py!"BLOB", py!"HTML"]

/-- the children whose idShorts are compared -/
def children (v : AVal) : List AVal := if className v = py!"Submodel" then elems v .submodelElements else elems v .value

/-- the children that need an idShort -/
def namedChildren (v : AVal) : List AVal :=
  if className v = py!"Submodel" then elems v .submodelElements
  else if className v = py!"Entity" then elems v .statements
  else if className v = py!"AnnotatedRelationshipElement" then elems v .annotations
  else elems v .value

/-- the text is true -/
inductive Means (lim : Option Nat) (Number : Str → Prop) (v : AVal) : Str → Level → Prop
  | language : ¬ OrLineFeed LanguageTagExactCase (txt v .language) →
      Means lim Number v py!"Constraint violated: Property 'language' does not contain a language according to BCP46" .error
  | noText : txt v .text = [] → Means lim Number v py!"Constraint violated: Property 'text' must not be empty" .error
  | longText : textLimit v < (txt v .text).length → Means lim Number v (py!"Constraint violated: Property 'text' is too long (" ++
      Py.natStr (txt v .text).length ++ py!" > " ++ Py.natStr (textLimit v)) .error
  | aasd121 : ¬ AASd121 v → Means lim Number v py!"Constraint AASd-121 violated: first key must be one of GloballyIdentifiables" .error
  | aasd122 : ¬ AASd122 v →
      Means lim Number v py!"Constraint AASd-122 violated: first key must be one of GenericGloballyIdentifiables" .error
  | aasd123 : ¬ AASd123 v → Means lim Number v py!"Constraint AASd-123 violated: first key must be one of AasIdentifiables" .error
  | aasd124 : ¬ AASd124 v → Means lim Number v
      py!"Constraint AASd-124 violated: last key must one of GenericGloballyIdentifiables or GenericFragmentKeys" .error
  /-- the first key need not be a fragment key -/
  | aasd125 (i : Nat) (t : Str) : ModelRef v → 1 ≤ i → KeyAt v i t → t ∉ submodelElementTypes → t ≠ py!"FragmentReference" →
      Means lim Number v (py!"Constraint AASd-125 violated: key " ++ Py.natStr i ++ py!" must be a FragmentKey") .error
  /-- the last key may be a fragment key -/
  | aasd126 (i : Nat) : ModelRef v → i + 1 < (elems v .keys).length → KeyAt v i py!"FragmentReference" →
      Means lim Number v (py!"Constraint AASd-126 violated: key " ++ Py.natStr i ++ py!" must not be a GenericFragmentKey") .error
  | aasd127 (i : Nat) (t : Str) : ModelRef v → KeyAt v (i + 1) py!"FragmentReference" → KeyAt v i t → t ≠ py!"File" → t ≠ py!"Blob" →
      Means lim Number v (py!"Constraint AASd-127 violated: key " ++ Py.natStr (i + 1) ++ py!" must be preceded by File or Blob") .error
  | aasd128 (i : Nat) (k : AVal) : ModelRef v → KeyAt v i py!"SubmodelElementList" → (elems v .keys)[i + 1]? = some k →
      ¬ Number (txt k .value) →
      Means lim Number v (py!"Constraint AASd-128 violated: key " ++ Py.natStr i ++ py!" must be followed by an integer") .error
  | specKeys : (elems (get v .dataSpecification) .keys).length ≠ 1 →
      Means lim Number v py!"dataSpecification/keys must have exactly one entry" .warning
  | deprecated (k : AVal) : (elems (get v .dataSpecification) .keys)[0]? = some k → txt k .value ∈
        [py!"https://adminshell.io/DataSpecificationTemplates/DataSpecificationIec61360/3/0",
         py!"http://adminshell.io/DataSpecificationTemplates/DataSpecificationIec61360/3/0",
         py!"https://adminshell.io/DataSpecificationTemplates/DataSpecificationIEC61360/3/0",
         py!"http://adminshell.io/DataSpecificationTemplates/DataSpecificationIEC61360/3/0"] →
      Means lim Number v (py!"dataSpecification/keys[0] has deprecated value " ++ txt k .value ++
        py!", expected https://admin-shell.io/DataSpecificationTemplates/DataSpecificationIec61360/3") .warning
  | unexpected (k : AVal) : (elems (get v .dataSpecification) .keys)[0]? = some k →
      txt k .value ≠ py!"https://admin-shell.io/DataSpecificationTemplates/DataSpecificationIec61360/3" →
      Means lim Number v (py!"dataSpecification/keys[0] has unexpected value " ++ txt k .value ++
        py!", expected https://admin-shell.io/DataSpecificationTemplates/DataSpecificationIec61360/3") .warning
  | aasc002 : ¬ AASc002 v → Means lim Number v py!"Constraint AASc-3a-002 violated: English language is missing" .error
  | aasc009 : ¬ AASc009 v → Means lim Number v py!"Constraint AASc-3a-009 violated: neither unit nor unit_id is set" .error
  | aasc010 : Set v .value → Set v .valueList →
      Means lim Number v py!"Constraint AASc-3a-010 violated: value and value_list cannot be set simultaneously" .error
  | aasd118 : Set v .supplementalSemanticIds → ¬ Set v .semanticId →
      Means lim Number v py!"Constraint AASd-118 violated: supplementalSemanticId is given but semanticId is missing" .error
  | value (f : Fld) (t : Xsd) (p : Str) : f ∈ [Fld.value, .min, .max] → Set v f → t.name = txt v .valueType → ¬ Accepted lim t (txt v f) →
      Placed v p → Means lim Number v (py!"Value '" ++ txt v f ++ py!"' is not a '" ++ txt v .valueType ++ py!"'" ++ p) .error
  | aasd002 : ¬ AASd002 v → Means lim Number v py!"Constraint AASd-002 violated: idShort shall match [a-zA-Z][a-zA-Z0-9_]*" .error
  | aasd005 : Set v .version → ¬ Set v .revision →
      Means lim Number v py!"Constraint AASd-005 violated: version is given but no revision" .error
  | aasd133 : ¬ AASd133 v → Means lim Number v py!"Constraint AASd-133 violated: type must be ExternalReference" .error
  | aasd131 : ¬ Set v .globalAssetId → ¬ Set v .specificAssetIds →
      Means lim Number v py!"Constraint AASd-131 violated: neither globalAssetId nor specificAssetIds given" .error
  | aasd116 (i : Nat) (x : AVal) : (elems v .specificAssetIds)[i]? = some x → txt x .name = py!"globalAssetId" →
      Means lim Number v (py!"Constraint AASd-116 violated: specific asset id " ++ Py.natStr i ++ py!" must not have name 'globalAssetId'")
        .error
  | aasd022 (i j : Nat) (x y : AVal) (s : Str) : i ≠ j → (children v)[i]? = some x → (children v)[j]? = some y →
      idShort? x = some s → idShort? y = some s → Means lim Number v (py!"AASd-022 violated: Duplicate idShort '" ++ s ++ py!"'") .error
  | aasd090 : ¬ AASd090 v → Means lim Number v (py!"Constraint AASd-090 violated: category " ++ txt v .category ++
      py!" is not one of ['CONSTANT', 'PARAMETER', 'VARIABLE'] @ " ++ place v) .error
  | aasd117 (i : Nat) (x : AVal) (p : Str) : (namedChildren v)[i]? = some x → idShort? x = none → Placed v p →
      Means lim Number v (py!"Constraint AASd-117 violated: element " ++ Py.natStr i ++ py!" has no idShort" ++ p) .error
  | observed : ¬ ModelRef (get v .observed) →
      Means lim Number v (py!"Constraint violated: Property 'observed' must be a model reference @ " ++ place v) .error
  | selfManaged : txt v .entityType = py!"SelfManagedEntity" → ¬ Set v .globalAssetId → ¬ Set v .specificAssetIds →
      Means lim Number v (py!"Constraint AASd-014 violated: entity is self-manged but neither globalAssetId nor specificAssetId are set @ "
        ++ place v) .error
  | coManaged : txt v .entityType = py!"CoManagedEntity" → Set v .globalAssetId ∨ Set v .specificAssetIds →
      Means lim Number v (py!"Constraint AASd-014 violated: entity is co-manged but either globalAssetId or specificAssetId are set @ "
        ++ place v) .error
  | aasd134 : ¬ AASd134 v → Means lim Number v (py!"Constraint AASd-134 violated: duplicate id short @ " ++ place v) .error
  | elementType : ¬ ElementType v →
      Means lim Number v (py!"Constraint violated: type_value_list_element must be a AasSubmodelElement @ " ++ place v) .error
  | aasd107 (i : Nat) (x : AVal) : (elems v .value)[i]? = some x → Set x .semanticId → Set v .semanticIdListElement →
      ¬ SameRef (get x .semanticId) (get v .semanticIdListElement) →
      Means lim Number v (py!"Constraint AASd-107 violated: Element " ++ Py.natStr i ++ py!" has invalid semantic id " ++
        shownRef (get x .semanticId) ++ py!", should be " ++ shownRef (get v .semanticIdListElement) ++ py!" @ " ++ place v) .error
  /-- the semantic id is that of an earlier element, and the first one that is given -/
  | aasd114 (i j : Nat) (x y : AVal) : j < i → (elems v .value)[i]? = some x → (elems v .value)[j]? = some y → Set x .semanticId →
      Set y .semanticId → (∀ k z, k < j → (elems v .value)[k]? = some z → ¬ Set z .semanticId) →
      ¬ SameRef (get x .semanticId) (get y .semanticId) →
      Means lim Number v (py!"Constraint AASd-114 violated: Element " ++ Py.natStr i ++ py!" must have semanticId " ++
        shownRef (get y .semanticId) ++ py!" @ " ++ place v) .error
  | aasd108 (i : Nat) (x : AVal) : (elems v .value)[i]? = some x → className x ≠ txt v .typeValueListElement →
      className x ∉ specializations (txt v .typeValueListElement) →
      Means lim Number v (py!"Constraint AASd-108 violated: Element " ++ Py.natStr i ++ py!" must be " ++ txt v .typeValueListElement ++
        py!" @ " ++ place v) .error
  | noValueType (x : AVal) : x ∈ elems v .value → className x ∈ [py!"Property", py!"Range"] → ¬ Set v .valueTypeListElement →
      Means lim Number v (py!"Constraint AASd-109 violated: valueTypeListElement must be set since there are Properties/Ranges @ " ++ place v)
        .error
  | valueType (i : Nat) (x : AVal) : (elems v .value)[i]? = some x → className x ∈ [py!"Property", py!"Range"] →
      txt x .valueType ≠ txt v .valueTypeListElement →
      Means lim Number v (py!"Constraint AASd-109 violated: value type of element " ++ Py.natStr i ++
        py!" does not match valueTypeListElement @ " ++ place v) .error
  | aasd120 (i : Nat) (x : AVal) : (elems v .value)[i]? = some x → idShort? x ≠ none →
      Means lim Number v (py!"Constraint AASd-120 violated: element " ++ Py.natStr i ++ py!" must not have an idShort @ " ++ place v) .error
  | aasd129 : ¬ AASd129Top v → Means lim Number v
      py!"Constraint AASd-129 violated: kind must be Template as at least one qualifier is a TemplateQualifier" .error
  | dataType (name : Str) (categories types : List Str) (i : Nat) (c : AVal) : TypesFor name categories types →
      txt v .category ∈ categories → ContentAt v i c → txt c .dataType ∉ types →
      Means lim Number v (py!"Constraint " ++ name ++ py!" violated: embeddedDataSpecifications[" ++ Py.natStr i ++ py!"].dataType is invalid")
        .error
  | aasc007 (i : Nat) (c : AVal) : txt v .category = py!"QUALIFIER_TYPE" → ContentAt v i c → ¬ Set c .dataType →
      Means lim Number v (py!"Constraint AASc-3a-007 violated: embeddedDataSpecifications[" ++ Py.natStr i ++ py!"].dataType is missing")
        .error
  | noDefinition (i : Nat) (c : AVal) : ContentAt v i c → ¬ Set c .value → ¬ Set c .definition →
      Means lim Number v (py!"Constraint AASc-3a-008 violated: embeddedDataSpecifications[" ++ Py.natStr i ++ py!"].definition is missing")
        .error
  | noEnglish (i : Nat) (c : AVal) : ContentAt v i c → ¬ Set c .value → Set c .definition → ¬ English (elems c .definition) →
      Means lim Number v (py!"Constraint AASc-3a-008 violated: embeddedDataSpecifications[" ++ Py.natStr i ++
        py!"].definition.language is missing English.") .error

end Verif.Spec.Model
