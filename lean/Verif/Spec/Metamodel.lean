import Verif.Spec.Parse
import Verif.Strings

/-!
# The meta-model of the specification

Written from the specification (AAS Part 1, version 3.0, and its JSON schema), not from the code: the classes with their attributes and
cardinalities, the literals of the enumerations, the classes that stand for others. String types are those of `Spec/Strings.lean`.
-/

namespace Verif.Spec.Metamodel
open Verif Verif.Aas

/-- the enumerations -/
inductive Enumeration
  | keyTypes
  | aasSubmodelElements
  | referenceTypes
  | dataTypeIec61360
  | modellingKind
  | qualifierKind
  | assetKind
  | stateOfEvent
  | direction
  | entityType
  | dataTypeDefXsd
  deriving DecidableEq, Repr

/-- data elements that can be instantiated -/
def dataElements : List Str := [py!"Blob", py!"File", py!"MultiLanguageProperty", py!"Property", py!"Range", py!"ReferenceElement"]

/-- submodel elements that can be instantiated -/
def submodelElements : List Str :=
  dataElements ++ [py!"AnnotatedRelationshipElement", py!"BasicEventElement", py!"Capability", py!"Entity", py!"Operation", py!"RelationshipElement",
    py!"SubmodelElementCollection", py!"SubmodelElementList"]

/-- submodel elements, also those that only stand for others -/
def aasSubmodelElements : List Str := submodelElements ++ [py!"DataElement", py!"EventElement", py!"SubmodelElement"]

/-- the literals of an enumeration -/
def literals : Enumeration → List Str
  | .keyTypes => aasSubmodelElements ++ [py!"AssetAdministrationShell", py!"ConceptDescription", py!"Submodel", py!"Identifiable", py!"Referable",
      py!"FragmentReference", py!"GlobalReference"]
  | .aasSubmodelElements => aasSubmodelElements
  | .referenceTypes => [py!"ExternalReference", py!"ModelReference"]
  | .dataTypeIec61360 => [py!"BLOB", py!"BOOLEAN", py!"DATE", py!"FILE", py!"HTML", py!"INTEGER_COUNT", py!"INTEGER_CURRENCY", py!"INTEGER_MEASURE",
      py!"IRDI", py!"IRI", py!"RATIONAL", py!"RATIONAL_MEASURE", py!"REAL_COUNT", py!"REAL_CURRENCY", py!"REAL_MEASURE", py!"STRING",
      py!"STRING_TRANSLATABLE", py!"TIME", py!"TIMESTAMP"]
  | .modellingKind => [py!"Template", py!"Instance"]
  | .qualifierKind => [py!"ValueQualifier", py!"ConceptQualifier", py!"TemplateQualifier"]
  | .assetKind => [py!"Type", py!"Instance", py!"NotApplicable"]
  | .stateOfEvent => [py!"on", py!"off"]
  | .direction => [py!"input", py!"output"]
  | .entityType => [py!"CoManagedEntity", py!"SelfManagedEntity"]
  | .dataTypeDefXsd => [py!"xs:anyURI", py!"xs:base64Binary", py!"xs:boolean", py!"xs:byte", py!"xs:date", py!"xs:dateTime", py!"xs:decimal",
      py!"xs:double", py!"xs:duration", py!"xs:float", py!"xs:gDay", py!"xs:gMonth", py!"xs:gMonthDay", py!"xs:gYear", py!"xs:gYearMonth",
      py!"xs:hexBinary", py!"xs:int", py!"xs:integer", py!"xs:long", py!"xs:negativeInteger", py!"xs:nonNegativeInteger", py!"xs:nonPositiveInteger",
      py!"xs:positiveInteger", py!"xs:short", py!"xs:string", py!"xs:time", py!"xs:unsignedByte", py!"xs:unsignedInt", py!"xs:unsignedLong",
      py!"xs:unsignedShort"]

/-- the type of an attribute -/
inductive Kind
  /-- a string of this type -/
  | text (format : SfvCls)
  /-- a string; what it looks like is the matter of a constraint -/
  | plain
  | flag
  | literal (e : Enumeration)
  /-- an object -/
  | one (cls : Str)
  /-- a list of objects, which is not empty -/
  | many (cls : Str)
  deriving DecidableEq, Repr

/-- an attribute -/
structure Attribute where
  name : Str
  kind : Kind
  required : Bool
  deriving DecidableEq, Repr

/-- cardinality 1 -/
def req (name : Str) (kind : Kind) : Attribute := ⟨name, kind, true⟩
/-- cardinality 0..1 -/
def opt (name : Str) (kind : Kind) : Attribute := ⟨name, kind, false⟩

def reference : Kind := .one py!"Reference"
def references : Kind := .many py!"Reference"
def identifier : Kind := .text .identifierString

/-! ### what classes have in common -/

def hasSemantics : List Attribute := [opt py!"semanticId" reference, opt py!"supplementalSemanticIds" references]
def hasExtensions : List Attribute := [opt py!"extensions" (.many py!"Extension")]
def hasDataSpecification : List Attribute := [opt py!"embeddedDataSpecifications" (.many py!"EmbeddedDataSpecification")]
def hasKind : List Attribute := [opt py!"kind" (.literal .modellingKind)]
def qualifiable : List Attribute := [opt py!"qualifiers" (.many py!"Qualifier")]
def referable : List Attribute :=
  hasExtensions ++ [opt py!"category" (.text .nameTypeString), opt py!"idShort" (.text .nameTypeString),
    opt py!"displayName" (.many py!"MultiLanguageNameType"), opt py!"description" (.many py!"MultiLanguageTextType")]
def identifiable : List Attribute := referable ++ [opt py!"administration" (.one py!"AdministrativeInformation"), req py!"id" identifier]
def submodelElement : List Attribute := referable ++ hasSemantics ++ qualifiable ++ hasDataSpecification
def langString : List Attribute := [req py!"language" .plain, req py!"text" .plain]
def relationship : List Attribute := submodelElement ++ [req py!"first" reference, req py!"second" reference]

/-- a class that can be instantiated -/
structure Class where
  name : Str
  attributes : List Attribute
  /-- whether objects have to name their class -/
  tagged : Bool := false

/-- the classes that can be instantiated -/
def classes : List Class :=
  [{ name := py!"Environment", attributes := [opt py!"assetAdministrationShells" (.many py!"AssetAdministrationShell"), opt py!"submodels" (.many py!"Submodel"),
      opt py!"conceptDescriptions" (.many py!"ConceptDescription")] },
   { name := py!"AssetAdministrationShell", tagged := true, attributes := identifiable ++ hasDataSpecification ++
      [opt py!"derivedFrom" reference, req py!"assetInformation" (.one py!"AssetInformation"), opt py!"submodels" references] },
   { name := py!"Submodel", tagged := true, attributes := identifiable ++ hasKind ++ hasSemantics ++ qualifiable ++ hasDataSpecification ++
      [opt py!"submodelElements" (.many py!"SubmodelElement")] },
   { name := py!"ConceptDescription", tagged := true, attributes := identifiable ++ hasDataSpecification ++ [opt py!"isCaseOf" references] },
   { name := py!"AssetInformation", attributes := [req py!"assetKind" (.literal .assetKind), opt py!"globalAssetId" identifier,
      opt py!"specificAssetIds" (.many py!"SpecificAssetId"), opt py!"assetType" identifier, opt py!"defaultThumbnail" (.one py!"Resource")] },
   { name := py!"Resource", attributes := [req py!"path" (.text .pathString), opt py!"contentType" (.text .contentType)] },
   { name := py!"SpecificAssetId", attributes := hasSemantics ++ [req py!"name" (.text .labelString), req py!"value" identifier, opt py!"externalSubjectId" reference] },
   { name := py!"AdministrativeInformation", attributes := hasDataSpecification ++ [opt py!"version" (.text .versionString), opt py!"revision" (.text .revisionString),
      opt py!"creator" reference, opt py!"templateId" identifier] },
   { name := py!"Extension", attributes := hasSemantics ++ [req py!"name" (.text .nameTypeString), opt py!"valueType" (.literal .dataTypeDefXsd),
      opt py!"value" (.text .valueDataType), opt py!"refersTo" references] },
   { name := py!"Qualifier", attributes := hasSemantics ++ [opt py!"kind" (.literal .qualifierKind), req py!"type" (.text .nameTypeString),
      req py!"valueType" (.literal .dataTypeDefXsd), opt py!"value" (.text .valueDataType), opt py!"valueId" reference] },
   { name := py!"Reference", attributes := [req py!"type" (.literal .referenceTypes), opt py!"referredSemanticId" reference, req py!"keys" (.many py!"Key")] },
   { name := py!"Key", attributes := [req py!"type" (.literal .keyTypes), req py!"value" identifier] },
   { name := py!"MultiLanguageNameType", attributes := langString },
   { name := py!"MultiLanguageTextType", attributes := langString },
   { name := py!"DefinitionTypeIec61360", attributes := langString },
   { name := py!"PreferredNameTypeIec61360", attributes := langString },
   { name := py!"ShortNameTypeIec61360", attributes := langString },
   { name := py!"EmbeddedDataSpecification", attributes := [req py!"dataSpecification" reference, req py!"dataSpecificationContent" (.one py!"DataSpecificationContent")] },
   { name := py!"DataSpecificationIec61360", tagged := true, attributes := [req py!"preferredName" (.many py!"PreferredNameTypeIec61360"),
      opt py!"shortName" (.many py!"ShortNameTypeIec61360"), opt py!"unit" (.text .nonEmptyString), opt py!"unitId" reference,
      opt py!"sourceOfDefinition" (.text .nonEmptyString), opt py!"symbol" (.text .nonEmptyString), opt py!"dataType" (.literal .dataTypeIec61360),
      opt py!"definition" (.many py!"DefinitionTypeIec61360"), opt py!"valueFormat" (.text .nonEmptyString), opt py!"valueList" (.one py!"ValueList"),
      opt py!"value" (.text .valueTypeIec61360), opt py!"levelType" (.one py!"LevelType")] },
   { name := py!"ValueList", attributes := [req py!"valueReferencePairs" (.many py!"ValueReferencePair")] },
   { name := py!"ValueReferencePair", attributes := [req py!"value" identifier, req py!"valueId" reference] },
   { name := py!"LevelType", attributes := [req py!"min" .flag, req py!"nom" .flag, req py!"typ" .flag, req py!"max" .flag] },
   { name := py!"OperationVariable", attributes := [req py!"value" (.one py!"SubmodelElement")] },
   { name := py!"AnnotatedRelationshipElement", tagged := true, attributes := relationship ++ [opt py!"annotations" (.many py!"DataElement")] },
   { name := py!"BasicEventElement", tagged := true, attributes := submodelElement ++ [req py!"observed" reference, req py!"direction" (.literal .direction),
      req py!"state" (.literal .stateOfEvent), opt py!"messageTopic" (.text .messageTopicString), opt py!"messageBroker" reference,
      opt py!"lastUpdate" (.text .dateTimeUtc), opt py!"minInterval" (.text .duration), opt py!"maxInterval" (.text .duration)] },
   { name := py!"Blob", tagged := true, attributes := submodelElement ++ [opt py!"value" (.text .blobString), req py!"contentType" (.text .contentType)] },
   { name := py!"Capability", tagged := true, attributes := submodelElement },
   { name := py!"Entity", tagged := true, attributes := submodelElement ++ [opt py!"statements" (.many py!"SubmodelElement"), req py!"entityType" (.literal .entityType),
      opt py!"globalAssetId" identifier, opt py!"specificAssetIds" (.many py!"SpecificAssetId")] },
   { name := py!"File", tagged := true, attributes := submodelElement ++ [opt py!"value" (.text .pathString), req py!"contentType" (.text .contentType)] },
   { name := py!"MultiLanguageProperty", tagged := true, attributes := submodelElement ++ [opt py!"value" (.many py!"MultiLanguageTextType"), opt py!"valueId" reference] },
   { name := py!"Operation", tagged := true, attributes := submodelElement ++ [opt py!"inputVariables" (.many py!"OperationVariable"),
      opt py!"outputVariables" (.many py!"OperationVariable"), opt py!"inoutputVariables" (.many py!"OperationVariable")] },
   { name := py!"Property", tagged := true, attributes := submodelElement ++ [req py!"valueType" (.literal .dataTypeDefXsd), opt py!"value" (.text .valueDataType),
      opt py!"valueId" reference] },
   { name := py!"Range", tagged := true, attributes := submodelElement ++ [req py!"valueType" (.literal .dataTypeDefXsd), opt py!"min" (.text .valueDataType),
      opt py!"max" (.text .valueDataType)] },
   { name := py!"ReferenceElement", tagged := true, attributes := submodelElement ++ [opt py!"value" reference] },
   { name := py!"RelationshipElement", tagged := true, attributes := relationship },
   { name := py!"SubmodelElementCollection", tagged := true, attributes := submodelElement ++ [opt py!"value" (.many py!"SubmodelElement")] },
   { name := py!"SubmodelElementList", tagged := true, attributes := submodelElement ++ [opt py!"orderRelevant" .flag, opt py!"semanticIdListElement" reference,
      req py!"typeValueListElement" (.literal .aasSubmodelElements), opt py!"valueTypeListElement" (.literal .dataTypeDefXsd),
      opt py!"value" (.many py!"SubmodelElement")] }]

/-- the classes whose instances may stand where this class is expected -/
def instances (cls : Str) : List Str :=
  if cls = py!"SubmodelElement" then submodelElements
  else if cls = py!"DataElement" then dataElements
  else if cls = py!"DataSpecificationContent" then [py!"DataSpecificationIec61360"]
  else [cls]

/-- A JSON value is an instance of the type: right types of values, all required attributes, no others than those of the class, the class
named in `modelType` where it has to be. `T f s`: the string `s` has the type `f`. -/
inductive Instance (T : SfvCls → Str → Prop) : Kind → Json → Prop
  | text {f s} : T f s → Instance T (.text f) (.str s)
  | plain (s) : Instance T .plain (.str s)
  | flag (b) : Instance T .flag (.bool b)
  | literal {e s} : s ∈ literals e → Instance T (.literal e) (.str s)
  | many {c l} : l ≠ [] → (∀ j ∈ l, Instance T (.one c) j) → Instance T (.many c) (.arr l)
  | one {c kvs} (d : Class) (cls : d ∈ classes) (is : d.name ∈ instances c)
      (tag : d.tagged = true → (py!"modelType", Json.str d.name) ∈ kvs)
      (known : ∀ e ∈ kvs, e.1 = py!"modelType" ∨ ∃ a ∈ d.attributes, a.name = e.1)
      (required : ∀ a ∈ d.attributes, a.required = true → ∃ j, (a.name, j) ∈ kvs)
      (values : ∀ a ∈ d.attributes, ∀ j, (a.name, j) ∈ kvs → Instance T a.kind j) : Instance T (.one c) (.obj kvs)

/-- a value in the document -/
inductive Part : Json → Json → Prop
  | refl (j) : Part j j
  | item {l j k} : j ∈ l → Part j k → Part (.arr l) k
  | member {kvs e k} : e ∈ kvs → Part e.2 k → Part (.obj kvs) k

/-- the classes that documents are checked against: no submodel elements or data specifications on their own -/
def Root (c : Str) : Prop :=
  (c ∈ [py!"SubmodelElement", py!"DataElement", py!"DataSpecificationContent"] ∨ ∃ d ∈ classes, d.name = c) ∧
    c ∉ submodelElements ∧ c ≠ py!"DataSpecificationIec61360"

/-- What the engine does not see: no object claims to be an `EventElement`, and the time of the last update of an event is in UTC. -/
def Unsuspicious (T : SfvCls → Str → Prop) (kvs : List (Str × Json)) : Prop :=
  (py!"modelType", Json.str py!"EventElement") ∉ kvs ∧ ∀ s, (py!"lastUpdate", Json.str s) ∈ kvs → T .dateTimeUtc s

/-- What the engine checks after the format: the type of the elements of a list is one of submodel elements. -/
def ElementTyped (kvs : List (Str × Json)) : Prop := ∀ s, (py!"typeValueListElement", Json.str s) ∈ kvs → s ∈ aasSubmodelElements

end Verif.Spec.Metamodel
