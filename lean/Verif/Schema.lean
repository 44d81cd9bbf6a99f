import Verif.Parse

/-!
# The classes of `aas_test_engines/test_cases/v3_0/model.py`

Generated by `tools/gen_schema.py` from the source text. The declarations of each class are given as they are in the source (`bases`,
`ownFields`, `ownChecks`, ...); inheritance is computed as Python does (`mro`, `dataclassFields`, `collectSubclasses`). The outcome is
also given in explicit tables (`fieldsOf`, `subclassesOf`, `checkTable`), which `SchemaLemmas.lean` proves to be the same.
-/

namespace Verif.Aas
open Verif Verif.Parse

/-- the dataclasses of model.py 65-1466 -/
inductive Cls
  | langStringSet | multiLanguageNameType | multiLanguageTextType | key | reference | dataSpecificationContent
  | embeddedDataSpecification | hasDataSpecification | valueReferencePair | valueList | levelType | definitionTypeIec61360
  | preferredNameTypeIec61360 | shortNameTypeIec61360 | dataSpecificationIec61360 | hasSemantics | extension | hasExtensions
  | referable | hasKind | administrativeInformation | identifiable | qualifier | qualifiable
  | specificAssetId | resource | assetInformation | submodelElement | dataElement | relationshipElement
  | annotatedRelationshipElement | eventElement | basicEventElement | blob | capability | entity
  | file | multiLanguageProperty | operationVariable | operation | property | range
  | referenceElement | submodelElementCollection | submodelElementList | assetAdministrationShell | submodel | conceptDescription
  | environment
  deriving DecidableEq, Repr

/-- the enumerations of model.py and `DataTypeDefXsd` (data_types.py 326-356) -/
inductive EnumCls
  | keyType | referenceType | dataTypeIec61360 | modellingKind | qualifierKind | assetKind
  | stateOfEvent | direction | entityType | dataTypeDefXsd
  deriving DecidableEq, Repr

/-- the classes of formatted strings, model.py 98-186 and 517-524 -/
inductive SfvCls
  | blobString | contentType | identifierString | labelString | messageTopicString | nameTypeString
  | pathString | revisionString | versionString | valueDataType | dateTime | dateTimeUtc
  | duration | dataType | valueType | valueTypeIec61360 | nonEmptyString
  deriving DecidableEq, Repr

/-- the names of the fields -/
inductive Fld
  | language | text | type_ | value | referredSemanticId | keys
  | dataSpecification | dataSpecificationContent | embeddedDataSpecifications | valueId | valueReferencePairs | min
  | nom | typ | max | preferredName | shortName | unit
  | unitId | sourceOfDefinition | symbol | dataType | definition | valueFormat
  | valueList | levelType | semanticId | supplementalSemanticIds | name | valueType
  | refersTo | extensions | category | idShort | displayName | description
  | kind | version | revision | creator | templateId | administration
  | id | qualifiers | externalSubjectId | path | contentType | assetKind
  | globalAssetId | specificAssetIds | assetType | defaultThumbnail | idShortPath | first_
  | second | annotations | observed | direction | state | messageTopic
  | messageBroker | lastUpdate | minInterval | maxInterval | statements | entityType
  | inputVariables | outputVariables | inoutputVariables | orderRelevant | semanticIdListElement | typeValueListElement
  | valueTypeListElement | derivedFrom | assetInformation | submodels | submodelElements | isCaseOf
  | assetAdministrationShells | conceptDescriptions
  deriving DecidableEq, Repr

abbrev ATy := Ty Cls EnumCls SfvCls
abbrev AVal := Val Cls EnumCls SfvCls Fld
abbrev AField := Field Cls EnumCls SfvCls Fld

/-- in the order of definition -/
def allCls : List Cls :=
  [.langStringSet, .multiLanguageNameType, .multiLanguageTextType, .key, .reference, .dataSpecificationContent, .embeddedDataSpecification, .hasDataSpecification, .valueReferencePair, .valueList, .levelType, .definitionTypeIec61360, .preferredNameTypeIec61360, .shortNameTypeIec61360, .dataSpecificationIec61360, .hasSemantics, .extension, .hasExtensions, .referable, .hasKind, .administrativeInformation, .identifiable, .qualifier, .qualifiable, .specificAssetId, .resource, .assetInformation, .submodelElement, .dataElement, .relationshipElement, .annotatedRelationshipElement, .eventElement, .basicEventElement, .blob, .capability, .entity, .file, .multiLanguageProperty, .operationVariable, .operation, .property, .range, .referenceElement, .submodelElementCollection, .submodelElementList, .assetAdministrationShell, .submodel, .conceptDescription, .environment]

/-- `__name__` -/
def Cls.pyName : Cls → Str
  | .langStringSet => py!"LangStringSet"  -- model.py 66-88
  | .multiLanguageNameType => py!"MultiLanguageNameType"  -- model.py 91-92
  | .multiLanguageTextType => py!"MultiLanguageTextType"  -- model.py 95-96
  | .key => py!"Key"  -- model.py 281-289
  | .reference => py!"Reference"  -- model.py 298-421
  | .dataSpecificationContent => py!"DataSpecificationContent"  -- model.py 429-430
  | .embeddedDataSpecification => py!"EmbeddedDataSpecification"  -- model.py 434-456
  | .hasDataSpecification => py!"HasDataSpecification"  -- model.py 460-461
  | .valueReferencePair => py!"ValueReferencePair"  -- model.py 465-467
  | .valueList => py!"ValueList"  -- model.py 471-472
  | .levelType => py!"LevelType"  -- model.py 476-480
  | .definitionTypeIec61360 => py!"DefinitionTypeIec61360"  -- model.py 505-506
  | .preferredNameTypeIec61360 => py!"PreferredNameTypeIec61360"  -- model.py 509-510
  | .shortNameTypeIec61360 => py!"ShortNameTypeIec61360"  -- model.py 513-514
  | .dataSpecificationIec61360 => py!"DataSpecificationIec61360"  -- model.py 527-574
  | .hasSemantics => py!"HasSemantics"  -- model.py 581-596
  | .extension => py!"Extension"  -- model.py 603-613
  | .hasExtensions => py!"HasExtensions"  -- model.py 617-618
  | .referable => py!"Referable"  -- model.py 625-638
  | .hasKind => py!"HasKind"  -- model.py 650-651
  | .administrativeInformation => py!"AdministrativeInformation"  -- model.py 658-671
  | .identifiable => py!"Identifiable"  -- model.py 679-681
  | .qualifier => py!"Qualifier"  -- model.py 694-721
  | .qualifiable => py!"Qualifiable"  -- model.py 725-726
  | .specificAssetId => py!"SpecificAssetId"  -- model.py 733-744
  | .resource => py!"Resource"  -- model.py 748-750
  | .assetInformation => py!"AssetInformation"  -- model.py 760-788
  | .submodelElement => py!"SubmodelElement"  -- model.py 813-827
  | .dataElement => py!"DataElement"  -- model.py 836-847
  | .relationshipElement => py!"RelationshipElement"  -- model.py 854-856
  | .annotatedRelationshipElement => py!"AnnotatedRelationshipElement"  -- model.py 863-867
  | .eventElement => py!"EventElement"  -- model.py 874-875
  | .basicEventElement => py!"BasicEventElement"  -- model.py 892-912
  | .blob => py!"Blob"  -- model.py 919-921
  | .capability => py!"Capability"  -- model.py 928-929
  | .entity => py!"Entity"  -- model.py 941-964
  | .file => py!"File"  -- model.py 971-973
  | .multiLanguageProperty => py!"MultiLanguageProperty"  -- model.py 980-992
  | .operationVariable => py!"OperationVariable"  -- model.py 999-1008
  | .operation => py!"Operation"  -- model.py 1012-1037
  | .property => py!"Property"  -- model.py 1044-1061
  | .range => py!"Range"  -- model.py 1068-1079
  | .referenceElement => py!"ReferenceElement"  -- model.py 1086-1087
  | .submodelElementCollection => py!"SubmodelElementCollection"  -- model.py 1094-1113
  | .submodelElementList => py!"SubmodelElementList"  -- model.py 1120-1237
  | .assetAdministrationShell => py!"AssetAdministrationShell"  -- model.py 1244-1261
  | .submodel => py!"Submodel"  -- model.py 1268-1322
  | .conceptDescription => py!"ConceptDescription"  -- model.py 1329-1456
  | .environment => py!"Environment"  -- model.py 1463-1466

/-- `__name__` -/
def EnumCls.pyName : EnumCls → Str
  | .keyType => py!"KeyType"  -- model.py 210-237
  | .referenceType => py!"ReferenceType"  -- model.py 292-294
  | .dataTypeIec61360 => py!"DataTypeIec61360"  -- model.py 483-502
  | .modellingKind => py!"ModellingKind"  -- model.py 644-646
  | .qualifierKind => py!"QualifierKind"  -- model.py 687-690
  | .assetKind => py!"AssetKind"  -- model.py 753-756
  | .stateOfEvent => py!"StateOfEvent"  -- model.py 881-883
  | .direction => py!"Direction"  -- model.py 886-888
  | .entityType => py!"EntityType"  -- model.py 935-937
  | .dataTypeDefXsd => py!"DataTypeDefXsd"  -- data_types.py 326-356

/-- `__name__` -/
def SfvCls.pyName : SfvCls → Str
  | .blobString => py!"BlobString"  -- model.py 99-100
  | .contentType => py!"ContentType"  -- model.py 103-106
  | .identifierString => py!"IdentifierString"  -- model.py 109-111
  | .labelString => py!"LabelString"  -- model.py 114-116
  | .messageTopicString => py!"MessageTopicString"  -- model.py 119-121
  | .nameTypeString => py!"NameTypeString"  -- model.py 124-126
  | .pathString => py!"PathString"  -- model.py 129-136
  | .revisionString => py!"RevisionString"  -- model.py 139-142
  | .versionString => py!"VersionString"  -- model.py 148-151
  | .valueDataType => py!"ValueDataType"  -- model.py 154-155
  | .dateTime => py!"DateTime"  -- model.py 158-164
  | .dateTimeUtc => py!"DateTimeUtc"  -- model.py 167-173
  | .duration => py!"Duration"  -- model.py 176-178
  | .dataType => py!"DataType"  -- model.py 181-182
  | .valueType => py!"ValueType"  -- model.py 185-186
  | .valueTypeIec61360 => py!"ValueTypeIec61360"  -- model.py 517-519
  | .nonEmptyString => py!"NonEmptyString"  -- model.py 522-523

/-- the Python name -/
def Fld.pyName : Fld → Str
  | .language => py!"language"
  | .text => py!"text"
  | .type_ => py!"type"
  | .value => py!"value"
  | .referredSemanticId => py!"referred_semantic_id"
  | .keys => py!"keys"
  | .dataSpecification => py!"data_specification"
  | .dataSpecificationContent => py!"data_specification_content"
  | .embeddedDataSpecifications => py!"embedded_data_specifications"
  | .valueId => py!"value_id"
  | .valueReferencePairs => py!"value_reference_pairs"
  | .min => py!"min"
  | .nom => py!"nom"
  | .typ => py!"typ"
  | .max => py!"max"
  | .preferredName => py!"preferred_name"
  | .shortName => py!"short_name"
  | .unit => py!"unit"
  | .unitId => py!"unit_id"
  | .sourceOfDefinition => py!"source_of_definition"
  | .symbol => py!"symbol"
  | .dataType => py!"data_type"
  | .definition => py!"definition"
  | .valueFormat => py!"value_format"
  | .valueList => py!"value_list"
  | .levelType => py!"level_type"
  | .semanticId => py!"semantic_id"
  | .supplementalSemanticIds => py!"supplemental_semantic_ids"
  | .name => py!"name"
  | .valueType => py!"value_type"
  | .refersTo => py!"refers_to"
  | .extensions => py!"extensions"
  | .category => py!"category"
  | .idShort => py!"id_short"
  | .displayName => py!"display_name"
  | .description => py!"description"
  | .kind => py!"kind"
  | .version => py!"version"
  | .revision => py!"revision"
  | .creator => py!"creator"
  | .templateId => py!"template_id"
  | .administration => py!"administration"
  | .id => py!"id"
  | .qualifiers => py!"qualifiers"
  | .externalSubjectId => py!"external_subject_id"
  | .path => py!"path"
  | .contentType => py!"content_type"
  | .assetKind => py!"asset_kind"
  | .globalAssetId => py!"global_asset_id"
  | .specificAssetIds => py!"specific_asset_ids"
  | .assetType => py!"asset_type"
  | .defaultThumbnail => py!"default_thumbnail"
  | .idShortPath => py!"id_short_path"
  | .first_ => py!"first"
  | .second => py!"second"
  | .annotations => py!"annotations"
  | .observed => py!"observed"
  | .direction => py!"direction"
  | .state => py!"state"
  | .messageTopic => py!"message_topic"
  | .messageBroker => py!"message_broker"
  | .lastUpdate => py!"last_update"
  | .minInterval => py!"min_interval"
  | .maxInterval => py!"max_interval"
  | .statements => py!"statements"
  | .entityType => py!"entity_type"
  | .inputVariables => py!"input_variables"
  | .outputVariables => py!"output_variables"
  | .inoutputVariables => py!"inoutput_variables"
  | .orderRelevant => py!"order_relevant"
  | .semanticIdListElement => py!"semantic_id_list_element"
  | .typeValueListElement => py!"type_value_list_element"
  | .valueTypeListElement => py!"value_type_list_element"
  | .derivedFrom => py!"derived_from"
  | .assetInformation => py!"asset_information"
  | .submodels => py!"submodels"
  | .submodelElements => py!"submodel_elements"
  | .isCaseOf => py!"is_case_of"
  | .assetAdministrationShells => py!"asset_administration_shells"
  | .conceptDescriptions => py!"concept_descriptions"

/-- the values of the members -/
def enumValuesOf : EnumCls → List Str
  | .keyType => [py!"AnnotatedRelationshipElement", py!"AssetAdministrationShell", py!"BasicEventElement", py!"Blob", py!"Capability", py!"ConceptDescription", py!"DataElement", py!"Entity", py!"EventElement", py!"File", py!"FragmentReference", py!"GlobalReference", py!"Identifiable", py!"MultiLanguageProperty", py!"Operation", py!"Property", py!"Range", py!"Referable", py!"ReferenceElement", py!"RelationshipElement", py!"Submodel", py!"SubmodelElement", py!"SubmodelElementCollection", py!"SubmodelElementList"]
  | .referenceType => [py!"ExternalReference", py!"ModelReference"]
  | .dataTypeIec61360 => [py!"BLOB", py!"BOOLEAN", py!"DATE", py!"FILE", py!"HTML", py!"INTEGER_COUNT", py!"INTEGER_CURRENCY", py!"INTEGER_MEASURE", py!"IRDI", py!"IRI", py!"RATIONAL", py!"RATIONAL_MEASURE", py!"REAL_COUNT", py!"REAL_CURRENCY", py!"REAL_MEASURE", py!"STRING", py!"STRING_TRANSLATABLE", py!"TIME", py!"TIMESTAMP"]
  | .modellingKind => [py!"Instance", py!"Template"]
  | .qualifierKind => [py!"ConceptQualifier", py!"TemplateQualifier", py!"ValueQualifier"]
  | .assetKind => [py!"Instance", py!"NotApplicable", py!"Type"]
  | .stateOfEvent => [py!"off", py!"on"]
  | .direction => [py!"input", py!"output"]
  | .entityType => [py!"CoManagedEntity", py!"SelfManagedEntity"]
  | .dataTypeDefXsd => [py!"xs:anyURI", py!"xs:base64Binary", py!"xs:boolean", py!"xs:byte", py!"xs:date", py!"xs:dateTime", py!"xs:decimal", py!"xs:double", py!"xs:duration", py!"xs:float", py!"xs:gDay", py!"xs:gMonth", py!"xs:gMonthDay", py!"xs:gYear", py!"xs:gYearMonth", py!"xs:hexBinary", py!"xs:int", py!"xs:integer", py!"xs:long", py!"xs:negativeInteger", py!"xs:nonNegativeInteger", py!"xs:nonPositiveInteger", py!"xs:positiveInteger", py!"xs:short", py!"xs:string", py!"xs:time", py!"xs:unsignedByte", py!"xs:unsignedInt", py!"xs:unsignedLong", py!"xs:unsignedShort"]

/-- `min_length` -/
def minLengthOf : SfvCls → Option Nat
  | .blobString => some 1
  | .contentType => some 1
  | .identifierString => some 1
  | .labelString => some 1
  | .messageTopicString => some 1
  | .nameTypeString => some 1
  | .pathString => some 1
  | .revisionString => some 1
  | .versionString => some 1
  | .dateTime => some 1
  | .dateTimeUtc => some 1
  | .duration => some 1
  | .dataType => some 1
  | .valueType => some 1
  | .valueTypeIec61360 => some 1
  | .nonEmptyString => some 1
  | _ => none

/-- `max_length` -/
def maxLengthOf : SfvCls → Option Nat
  | .contentType => some 100
  | .identifierString => some 2000
  | .labelString => some 64
  | .messageTopicString => some 255
  | .nameTypeString => some 128
  | .pathString => some 2000
  | .revisionString => some 4
  | .versionString => some 4
  | .valueTypeIec61360 => some 2000
  | _ => none

/-- `pattern` -/
def patternOf : SfvCls → Option Str
  | .contentType => some py!"^([!#$%&'*+\\-.^_`|~0-9a-zA-Z])+/([!#$%&'*+\\-.^_`|~0-9a-zA-Z])+([        \\t]*;[ \\t]*([!#$%&'*+\\-.^_`|~0-9a-zA-Z])+=(([!#$%&'*+\\-.^_`|~0-9a-zA-Z])+|\\\"(([\\t        !#-\\[\\]-~]|[\\x80-\u00ff])|\\\\([\\t !-~]|[\\x80-\u00ff]))*\\\"))*$"
  | .revisionString => some py!"(0|[1-9][0-9]*)"
  | .versionString => some py!"(0|[1-9][0-9]*)"
  | .duration => some py!"-?P((([0-9]+Y([0-9]+M)?([0-9]+D)?|([0-9]+M)([0-9]+D)?|([0-9]+D))(T(([0-9]+H)([0-9]+M)?([0-9]+(\\.[0-9]+)?S)?|([0-9]+M)([0-9]+(\\.[0-9]+)?S)?|([0-9]+(\\.[0-9]+)?S)))?)|(T(([0-9]+H)([0-9]+M)?([0-9]+(\\.[0-9]+)?S)?|([0-9]+M)([0-9]+(\\.[0-9]+)?S)?|([0-9]+(\\.[0-9]+)?S))))"
  | _ => none

/-- `_max_len_text` -/
def maxLenText : Cls → Option Nat
  | .multiLanguageNameType => some 128
  | .multiLanguageTextType => some 1023
  | .definitionTypeIec61360 => some 1023
  | .preferredNameTypeIec61360 => some 255
  | .shortNameTypeIec61360 => some 18
  | _ => none

/-- a declared field -/
structure Decl where
  name : Fld
  /-- `none`: `metadata={"exclude_as": None}` -/
  ty : Option ATy
  optional : Bool
  deriving DecidableEq, Repr

/-- declared base classes -/
def bases : Cls → List Cls
  | .multiLanguageNameType => [.langStringSet]
  | .multiLanguageTextType => [.langStringSet]
  | .definitionTypeIec61360 => [.langStringSet]
  | .preferredNameTypeIec61360 => [.langStringSet]
  | .shortNameTypeIec61360 => [.langStringSet]
  | .dataSpecificationIec61360 => [.dataSpecificationContent]
  | .extension => [.hasSemantics]
  | .referable => [.hasExtensions]
  | .administrativeInformation => [.hasDataSpecification]
  | .identifiable => [.referable]
  | .qualifier => [.hasSemantics]
  | .specificAssetId => [.hasSemantics]
  | .submodelElement => [.referable, .hasSemantics, .qualifiable, .hasDataSpecification]
  | .dataElement => [.submodelElement]
  | .relationshipElement => [.submodelElement]
  | .annotatedRelationshipElement => [.relationshipElement]
  | .eventElement => [.submodelElement]
  | .basicEventElement => [.eventElement]
  | .blob => [.dataElement]
  | .capability => [.submodelElement]
  | .entity => [.submodelElement]
  | .file => [.dataElement]
  | .multiLanguageProperty => [.dataElement]
  | .operation => [.submodelElement]
  | .property => [.dataElement]
  | .range => [.dataElement]
  | .referenceElement => [.dataElement]
  | .submodelElementCollection => [.submodelElement]
  | .submodelElementList => [.submodelElement]
  | .assetAdministrationShell => [.identifiable, .hasDataSpecification]
  | .submodel => [.identifiable, .hasKind, .hasSemantics, .qualifiable, .hasDataSpecification]
  | .conceptDescription => [.identifiable, .hasDataSpecification]
  | _ => []

/-- declared fields -/
def ownFields : Cls → List Decl
  | .langStringSet => [⟨.language, some (.str), false⟩, ⟨.text, some (.str), false⟩]
  | .key => [⟨.type_, some (.enum .keyType), false⟩, ⟨.value, some (.sfv .identifierString), false⟩]
  | .reference => [⟨.type_, some (.enum .referenceType), false⟩, ⟨.referredSemanticId, some (.cls .reference), true⟩, ⟨.keys, some (.list (.cls .key) false), false⟩]
  | .embeddedDataSpecification => [⟨.dataSpecification, some (.cls .reference), false⟩, ⟨.dataSpecificationContent, some (.cls .dataSpecificationContent), false⟩]
  | .hasDataSpecification => [⟨.embeddedDataSpecifications, some (.list (.cls .embeddedDataSpecification) false), true⟩]
  | .valueReferencePair => [⟨.value, some (.sfv .identifierString), false⟩, ⟨.valueId, some (.cls .reference), false⟩]
  | .valueList => [⟨.valueReferencePairs, some (.list (.cls .valueReferencePair) false), false⟩]
  | .levelType => [⟨.min, some (.bool), false⟩, ⟨.nom, some (.bool), false⟩, ⟨.typ, some (.bool), false⟩, ⟨.max, some (.bool), false⟩]
  | .dataSpecificationIec61360 => [⟨.preferredName, some (.list (.cls .preferredNameTypeIec61360) false), false⟩, ⟨.shortName, some (.list (.cls .shortNameTypeIec61360) false), true⟩, ⟨.unit, some (.sfv .nonEmptyString), true⟩, ⟨.unitId, some (.cls .reference), true⟩, ⟨.sourceOfDefinition, some (.sfv .nonEmptyString), true⟩, ⟨.symbol, some (.sfv .nonEmptyString), true⟩, ⟨.dataType, some (.enum .dataTypeIec61360), true⟩, ⟨.definition, some (.list (.cls .definitionTypeIec61360) false), true⟩, ⟨.valueFormat, some (.sfv .nonEmptyString), true⟩, ⟨.valueList, some (.cls .valueList), true⟩, ⟨.value, some (.sfv .valueTypeIec61360), true⟩, ⟨.levelType, some (.cls .levelType), true⟩]
  | .hasSemantics => [⟨.semanticId, some (.cls .reference), true⟩, ⟨.supplementalSemanticIds, some (.list (.cls .reference) false), true⟩]
  | .extension => [⟨.name, some (.sfv .nameTypeString), false⟩, ⟨.valueType, some (.enum .dataTypeDefXsd), true⟩, ⟨.value, some (.sfv .valueDataType), true⟩, ⟨.refersTo, some (.list (.cls .reference) false), true⟩]
  | .hasExtensions => [⟨.extensions, some (.list (.cls .extension) false), true⟩]
  | .referable => [⟨.category, some (.sfv .nameTypeString), true⟩, ⟨.idShort, some (.sfv .nameTypeString), true⟩, ⟨.displayName, some (.list (.cls .multiLanguageNameType) false), true⟩, ⟨.description, some (.list (.cls .multiLanguageTextType) false), true⟩]
  | .hasKind => [⟨.kind, some (.enum .modellingKind), true⟩]
  | .administrativeInformation => [⟨.version, some (.sfv .versionString), true⟩, ⟨.revision, some (.sfv .revisionString), true⟩, ⟨.creator, some (.cls .reference), true⟩, ⟨.templateId, some (.sfv .identifierString), true⟩]
  | .identifiable => [⟨.administration, some (.cls .administrativeInformation), true⟩, ⟨.id, some (.sfv .identifierString), false⟩]
  | .qualifier => [⟨.kind, some (.enum .qualifierKind), true⟩, ⟨.type_, some (.sfv .nameTypeString), false⟩, ⟨.valueType, some (.enum .dataTypeDefXsd), false⟩, ⟨.value, some (.sfv .valueDataType), true⟩, ⟨.valueId, some (.cls .reference), true⟩]
  | .qualifiable => [⟨.qualifiers, some (.list (.cls .qualifier) false), true⟩]
  | .specificAssetId => [⟨.name, some (.sfv .labelString), false⟩, ⟨.value, some (.sfv .identifierString), false⟩, ⟨.externalSubjectId, some (.cls .reference), true⟩]
  | .resource => [⟨.path, some (.sfv .pathString), false⟩, ⟨.contentType, some (.sfv .contentType), true⟩]
  | .assetInformation => [⟨.assetKind, some (.enum .assetKind), false⟩, ⟨.globalAssetId, some (.sfv .identifierString), true⟩, ⟨.specificAssetIds, some (.list (.cls .specificAssetId) false), true⟩, ⟨.assetType, some (.sfv .identifierString), true⟩, ⟨.defaultThumbnail, some (.cls .resource), true⟩]
  | .submodelElement => [⟨.idShortPath, none, false⟩]
  | .relationshipElement => [⟨.first_, some (.cls .reference), false⟩, ⟨.second, some (.cls .reference), false⟩]
  | .annotatedRelationshipElement => [⟨.annotations, some (.list (.cls .dataElement) false), true⟩]
  | .basicEventElement => [⟨.observed, some (.cls .reference), false⟩, ⟨.direction, some (.enum .direction), false⟩, ⟨.state, some (.enum .stateOfEvent), false⟩, ⟨.messageTopic, some (.sfv .messageTopicString), true⟩, ⟨.messageBroker, some (.cls .reference), true⟩, ⟨.lastUpdate, some (.sfv .dateTime), true⟩, ⟨.minInterval, some (.sfv .duration), true⟩, ⟨.maxInterval, some (.sfv .duration), true⟩]
  | .blob => [⟨.value, some (.sfv .blobString), true⟩, ⟨.contentType, some (.sfv .contentType), false⟩]
  | .entity => [⟨.statements, some (.list (.cls .submodelElement) false), true⟩, ⟨.entityType, some (.enum .entityType), false⟩, ⟨.globalAssetId, some (.sfv .identifierString), true⟩, ⟨.specificAssetIds, some (.list (.cls .specificAssetId) false), true⟩]
  | .file => [⟨.value, some (.sfv .pathString), true⟩, ⟨.contentType, some (.sfv .contentType), false⟩]
  | .multiLanguageProperty => [⟨.value, some (.list (.cls .multiLanguageTextType) false), true⟩, ⟨.valueId, some (.cls .reference), true⟩]
  | .operationVariable => [⟨.value, some (.cls .submodelElement), false⟩]
  | .operation => [⟨.inputVariables, some (.list (.cls .operationVariable) false), true⟩, ⟨.outputVariables, some (.list (.cls .operationVariable) false), true⟩, ⟨.inoutputVariables, some (.list (.cls .operationVariable) false), true⟩]
  | .property => [⟨.valueType, some (.enum .dataTypeDefXsd), false⟩, ⟨.value, some (.sfv .valueDataType), true⟩, ⟨.valueId, some (.cls .reference), true⟩]
  | .range => [⟨.valueType, some (.enum .dataTypeDefXsd), false⟩, ⟨.min, some (.sfv .valueDataType), true⟩, ⟨.max, some (.sfv .valueDataType), true⟩]
  | .referenceElement => [⟨.value, some (.cls .reference), true⟩]
  | .submodelElementCollection => [⟨.value, some (.list (.cls .submodelElement) false), true⟩]
  | .submodelElementList => [⟨.orderRelevant, some (.bool), true⟩, ⟨.semanticIdListElement, some (.cls .reference), true⟩, ⟨.typeValueListElement, some (.enum .keyType), false⟩, ⟨.valueTypeListElement, some (.enum .dataTypeDefXsd), true⟩, ⟨.value, some (.list (.cls .submodelElement) false), true⟩]
  | .assetAdministrationShell => [⟨.derivedFrom, some (.cls .reference), true⟩, ⟨.assetInformation, some (.cls .assetInformation), false⟩, ⟨.submodels, some (.list (.cls .reference) false), true⟩]
  | .submodel => [⟨.submodelElements, some (.list (.cls .submodelElement) false), true⟩]
  | .conceptDescription => [⟨.isCaseOf, some (.list (.cls .reference) false), true⟩]
  | .environment => [⟨.assetAdministrationShells, some (.list (.cls .assetAdministrationShell) false), true⟩, ⟨.submodels, some (.list (.cls .submodel) false), true⟩, ⟨.conceptDescriptions, some (.list (.cls .conceptDescription) false), true⟩]
  | _ => []

/-- `@abstract` (applies to the class itself only, reflect.py 19-26) -/
def isAbstract : Cls → Bool
  | .dataSpecificationContent => true
  | .submodelElement => true
  | .dataElement => true
  | _ => false

/-- `@requires_model_type` (inherited, parse.py 36-42) -/
def requiresModelType : Cls → Bool
  | .identifiable => true
  | _ => false

/-- the methods `check_...` -/
inductive Method
  | langStringSet_language | langStringSet_text | reference_aasd_121 | reference_aasd_122 | reference_aasd_123 | reference_aasd_124
  | reference_aasd_125 | reference_aasd_126 | reference_aasd_127 | reference_aasd_128 | embeddedDataSpecification_reference | dataSpecificationIec61360_aasc_3a_002
  | dataSpecificationIec61360_aasc_3a_009 | dataSpecificationIec61360_aasc_3a_010 | hasSemantics_aasd_118 | extension_value_type | referable_constraint_aasd_002 | administrativeInformation_constraint_aasd_005
  | qualifier_aasd_006 | qualifier_aasd_020 | qualifier_value_type | specificAssetId_aasd_133 | assetInformation_aasd_131 | assetInformation_aasd_116
  | submodelElement_aasc_3a_050 | dataElement_aasd_090 | annotatedRelationshipElement_aasd_117 | basicEventElement_observed | basicEventElement_message_broker | entity_aasd_014
  | entity_aad_117 | multiLanguageProperty_constraint_aasd_012 | operationVariable_aasd_117 | operation_aasd_134 | property_aasd_007 | property_value_type
  | range_value_type_min | range_value_type_max | submodelElementCollection_aasd_022 | submodelElementCollection_aasd_117 | submodelElementList_type_value_list_element | submodelElementList_aasd_107
  | submodelElementList_aasd_114 | submodelElementList_aasd_115 | submodelElementList_aasd_108 | submodelElementList_aasd_109 | submodelElementList_aasd_120 | assetAdministrationShell_derived_from
  | assetAdministrationShell_submodels | submodel_aasd_022 | submodel_aasd_117 | submodel_aasd_119 | submodel_aasd_129 | conceptDescription_aasc_3a_004
  | conceptDescription_aasc_3a_005 | conceptDescription_aasc_3a_006 | conceptDescription_aasc_3a_007 | conceptDescription_aasc_3a_008 | conceptDescription_aasc_3a_003
  deriving DecidableEq, Repr

/-- the name of the method -/
def Method.pyName : Method → Str
  | .langStringSet_language => py!"check_language"  -- model.py 74-80
  | .langStringSet_text => py!"check_text"  -- model.py 82-88
  | .reference_aasd_121 => py!"check_aasd_121"  -- model.py 303-313
  | .reference_aasd_122 => py!"check_aasd_122"  -- model.py 315-325
  | .reference_aasd_123 => py!"check_aasd_123"  -- model.py 327-335
  | .reference_aasd_124 => py!"check_aasd_124"  -- model.py 337-348
  | .reference_aasd_125 => py!"check_aasd_125"  -- model.py 350-360
  | .reference_aasd_126 => py!"check_aasd_126"  -- model.py 362-374
  | .reference_aasd_127 => py!"check_aasd_127"  -- model.py 376-390
  | .reference_aasd_128 => py!"check_aasd_128"  -- model.py 392-405
  | .embeddedDataSpecification_reference => py!"check_reference"  -- model.py 438-456
  | .dataSpecificationIec61360_aasc_3a_002 => py!"check_aasc_3a_002"  -- model.py 541-547
  | .dataSpecificationIec61360_aasc_3a_009 => py!"check_aasc_3a_009"  -- model.py 549-564
  | .dataSpecificationIec61360_aasc_3a_010 => py!"check_aasc_3a_010"  -- model.py 566-574
  | .hasSemantics_aasd_118 => py!"check_aasd_118"  -- model.py 587-596
  | .extension_value_type => py!"check_value_type"  -- model.py 611-613
  | .referable_constraint_aasd_002 => py!"check_constraint_aasd_002"  -- model.py 632-638
  | .administrativeInformation_constraint_aasd_005 => py!"check_constraint_aasd_005"  -- model.py 664-671
  | .qualifier_aasd_006 => py!"check_aasd_006"  -- model.py 703-709
  | .qualifier_aasd_020 => py!"check_aasd_020"  -- model.py 711-717
  | .qualifier_value_type => py!"check_value_type"  -- model.py 719-721
  | .specificAssetId_aasd_133 => py!"check_aasd_133"  -- model.py 738-744
  | .assetInformation_aasd_131 => py!"check_aasd_131"  -- model.py 767-775
  | .assetInformation_aasd_116 => py!"check_aasd_116"  -- model.py 777-788
  | .submodelElement_aasc_3a_050 => py!"check_aasc_3a_050"  -- model.py 822-827
  | .dataElement_aasd_090 => py!"check_aasd_090"  -- model.py 838-847
  | .annotatedRelationshipElement_aasd_117 => py!"check_aasd_117"  -- model.py 866-867
  | .basicEventElement_observed => py!"check_observed"  -- model.py 902-906
  | .basicEventElement_message_broker => py!"check_message_broker"  -- model.py 908-912
  | .entity_aasd_014 => py!"check_aasd_014"  -- model.py 947-961
  | .entity_aad_117 => py!"check_aad_117"  -- model.py 963-964
  | .multiLanguageProperty_constraint_aasd_012 => py!"check_constraint_aasd_012"  -- model.py 985-992
  | .operationVariable_aasd_117 => py!"check_aasd_117"  -- model.py 1002-1008
  | .operation_aasd_134 => py!"check_aasd_134"  -- model.py 1029-1037
  | .property_aasd_007 => py!"check_aasd_007"  -- model.py 1050-1057
  | .property_value_type => py!"check_value_type"  -- model.py 1059-1061
  | .range_value_type_min => py!"check_value_type_min"  -- model.py 1073-1075
  | .range_value_type_max => py!"check_value_type_max"  -- model.py 1077-1079
  | .submodelElementCollection_aasd_022 => py!"check_aasd_022"  -- model.py 1109-1110
  | .submodelElementCollection_aasd_117 => py!"check_aasd_117"  -- model.py 1112-1113
  | .submodelElementList_type_value_list_element => py!"check_type_value_list_element"  -- model.py 1141-1145
  | .submodelElementList_aasd_107 => py!"check_aasd_107"  -- model.py 1147-1160
  | .submodelElementList_aasd_114 => py!"check_aasd_114"  -- model.py 1162-1179
  | .submodelElementList_aasd_115 => py!"check_aasd_115"  -- model.py 1181-1188
  | .submodelElementList_aasd_108 => py!"check_aasd_108"  -- model.py 1190-1204
  | .submodelElementList_aasd_109 => py!"check_aasd_109"  -- model.py 1206-1224
  | .submodelElementList_aasd_120 => py!"check_aasd_120"  -- model.py 1226-1237
  | .assetAdministrationShell_derived_from => py!"check_derived_from"  -- model.py 1249-1253
  | .assetAdministrationShell_submodels => py!"check_submodels"  -- model.py 1255-1261
  | .submodel_aasd_022 => py!"check_aasd_022"  -- model.py 1286-1287
  | .submodel_aasd_117 => py!"check_aasd_117"  -- model.py 1289-1290
  | .submodel_aasd_119 => py!"check_aasd_119"  -- model.py 1292-1304
  | .submodel_aasd_129 => py!"check_aasd_129"  -- model.py 1306-1322
  | .conceptDescription_aasc_3a_004 => py!"check_aasc_3a_004"  -- model.py 1345-1372
  | .conceptDescription_aasc_3a_005 => py!"check_aasc_3a_005"  -- model.py 1374-1390
  | .conceptDescription_aasc_3a_006 => py!"check_aasc_3a_006"  -- model.py 1392-1408
  | .conceptDescription_aasc_3a_007 => py!"check_aasc_3a_007"  -- model.py 1410-1425
  | .conceptDescription_aasc_3a_008 => py!"check_aasc_3a_008"  -- model.py 1427-1447
  | .conceptDescription_aasc_3a_003 => py!"check_aasc_3a_003"  -- model.py 1449-1456

/-- declared methods `check_...` -/
def ownChecks : Cls → List Method
  | .langStringSet => [.langStringSet_language, .langStringSet_text]
  | .reference => [.reference_aasd_121, .reference_aasd_122, .reference_aasd_123, .reference_aasd_124, .reference_aasd_125, .reference_aasd_126, .reference_aasd_127, .reference_aasd_128]
  | .embeddedDataSpecification => [.embeddedDataSpecification_reference]
  | .dataSpecificationIec61360 => [.dataSpecificationIec61360_aasc_3a_002, .dataSpecificationIec61360_aasc_3a_009, .dataSpecificationIec61360_aasc_3a_010]
  | .hasSemantics => [.hasSemantics_aasd_118]
  | .extension => [.extension_value_type]
  | .referable => [.referable_constraint_aasd_002]
  | .administrativeInformation => [.administrativeInformation_constraint_aasd_005]
  | .qualifier => [.qualifier_aasd_006, .qualifier_aasd_020, .qualifier_value_type]
  | .specificAssetId => [.specificAssetId_aasd_133]
  | .assetInformation => [.assetInformation_aasd_131, .assetInformation_aasd_116]
  | .submodelElement => [.submodelElement_aasc_3a_050]
  | .dataElement => [.dataElement_aasd_090]
  | .annotatedRelationshipElement => [.annotatedRelationshipElement_aasd_117]
  | .basicEventElement => [.basicEventElement_observed, .basicEventElement_message_broker]
  | .entity => [.entity_aasd_014, .entity_aad_117]
  | .multiLanguageProperty => [.multiLanguageProperty_constraint_aasd_012]
  | .operationVariable => [.operationVariable_aasd_117]
  | .operation => [.operation_aasd_134]
  | .property => [.property_aasd_007, .property_value_type]
  | .range => [.range_value_type_min, .range_value_type_max]
  | .submodelElementCollection => [.submodelElementCollection_aasd_022, .submodelElementCollection_aasd_117]
  | .submodelElementList => [.submodelElementList_type_value_list_element, .submodelElementList_aasd_107, .submodelElementList_aasd_114, .submodelElementList_aasd_115, .submodelElementList_aasd_108, .submodelElementList_aasd_109, .submodelElementList_aasd_120]
  | .assetAdministrationShell => [.assetAdministrationShell_derived_from, .assetAdministrationShell_submodels]
  | .submodel => [.submodel_aasd_022, .submodel_aasd_117, .submodel_aasd_119, .submodel_aasd_129]
  | .conceptDescription => [.conceptDescription_aasc_3a_004, .conceptDescription_aasc_3a_005, .conceptDescription_aasc_3a_006, .conceptDescription_aasc_3a_007, .conceptDescription_aasc_3a_008, .conceptDescription_aasc_3a_003]
  | _ => []

/-! ## inheritance -/

/-- one step of the C3 merge: the first head that is in no tail -/
def pick (seqs : List (List Cls)) : Option Cls :=
  seqs.findSome? fun s =>
    match s with
    | [] => none
    | h :: _ => if seqs.any (fun t => t.tail.contains h) then none else some h

/-- C3 merge of Python's method resolution order -/
def merge : Nat → List (List Cls) → List Cls
  | 0, _ => []
  | n + 1, seqs =>
    match pick seqs with
    | none => []
    | some h => h :: merge n (seqs.map (·.filter (fun x => decide (x ≠ h))))

/-- `__mro__` (without `object`); the fuel bounds the depth of the hierarchy -/
def mroF : Nat → Cls → List Cls
  | 0, c => [c]
  | n + 1, c => c :: merge 20 ((bases c).map (mroF n) ++ [bases c])
def mro (c : Cls) : List Cls := mroF 6 c

/-- `d[f.name] = f` -/
def setField (fs : List Decl) (f : Decl) : List Decl :=
  if fs.any (fun g => decide (g.name = f.name)) then fs.map (fun g => if g.name = f.name then f else g) else fs ++ [f]

/-- `dataclasses.fields`: the fields of the bases in reverse method resolution order, then the own ones -/
def dataclassFieldsF : Nat → Cls → List Decl
  | 0, c => ownFields c
  | n + 1, c => (((mro c).tail.reverse.map (dataclassFieldsF n)).flatten ++ ownFields c).foldl setField []
def dataclassFields (c : Cls) : List Decl := dataclassFieldsF 6 c

/-- reflect.py 261-281: names in the document are given by parse.py 129-132 -/
def toField (d : Decl) : Option AField :=
  match d.ty with
  | none => some ⟨d.name, .excluded⟩
  | some ty => (toLowerCamelCase d.name.pyName).map fun key => ⟨d.name, .attr key ty (!d.optional)⟩

/-- `cls.__subclasses__()` -/
def directSubclasses (c : Cls) : List Cls := allCls.filter (fun d => (bases d).contains c)

/-- reflect.py 222-226 `_collect_subclasses` -/
def collectSubclassesF : Nat → Cls → List Cls
  | 0, _ => []
  | n + 1, c => (directSubclasses c).flatMap fun d => (if isAbstract d then [] else [d]) ++ collectSubclassesF n d
def collectSubclasses (c : Cls) : List Cls := collectSubclassesF 6 c

/-- `str` comparison -/
def strLt : Str → Str → Bool
  | _, [] => false
  | [], _ :: _ => true
  | a :: s, b :: t => if a < b then true else if a = b then strLt s t else false

def insertMethod (m : Method) : List Method → List Method
  | [] => [m]
  | x :: xs => if m.pyName = x.pyName then x :: xs else if strLt m.pyName x.pyName then m :: x :: xs else x :: insertMethod m xs

/-- parse.py 193 the methods found by `dir`: sorted by name; the first class of the method resolution order counts -/
def collectChecks (c : Cls) : List Method := ((mro c).flatMap ownChecks).foldl (fun acc m => insertMethod m acc) []

/-! ## outcome -/

/-- fields of each class, with their names in the document -/
def fieldsOf : Cls → List AField
  | .langStringSet => [
      ⟨.language, .attr py!"language" (.str) true⟩,
      ⟨.text, .attr py!"text" (.str) true⟩]
  | .multiLanguageNameType => [
      ⟨.language, .attr py!"language" (.str) true⟩,
      ⟨.text, .attr py!"text" (.str) true⟩]
  | .multiLanguageTextType => [
      ⟨.language, .attr py!"language" (.str) true⟩,
      ⟨.text, .attr py!"text" (.str) true⟩]
  | .key => [
      ⟨.type_, .attr py!"type" (.enum .keyType) true⟩,
      ⟨.value, .attr py!"value" (.sfv .identifierString) true⟩]
  | .reference => [
      ⟨.type_, .attr py!"type" (.enum .referenceType) true⟩,
      ⟨.referredSemanticId, .attr py!"referredSemanticId" (.cls .reference) false⟩,
      ⟨.keys, .attr py!"keys" (.list (.cls .key) false) true⟩]
  | .dataSpecificationContent => []
  | .embeddedDataSpecification => [
      ⟨.dataSpecification, .attr py!"dataSpecification" (.cls .reference) true⟩,
      ⟨.dataSpecificationContent, .attr py!"dataSpecificationContent" (.cls .dataSpecificationContent) true⟩]
  | .hasDataSpecification => [
      ⟨.embeddedDataSpecifications, .attr py!"embeddedDataSpecifications" (.list (.cls .embeddedDataSpecification) false) false⟩]
  | .valueReferencePair => [
      ⟨.value, .attr py!"value" (.sfv .identifierString) true⟩,
      ⟨.valueId, .attr py!"valueId" (.cls .reference) true⟩]
  | .valueList => [
      ⟨.valueReferencePairs, .attr py!"valueReferencePairs" (.list (.cls .valueReferencePair) false) true⟩]
  | .levelType => [
      ⟨.min, .attr py!"min" (.bool) true⟩,
      ⟨.nom, .attr py!"nom" (.bool) true⟩,
      ⟨.typ, .attr py!"typ" (.bool) true⟩,
      ⟨.max, .attr py!"max" (.bool) true⟩]
  | .definitionTypeIec61360 => [
      ⟨.language, .attr py!"language" (.str) true⟩,
      ⟨.text, .attr py!"text" (.str) true⟩]
  | .preferredNameTypeIec61360 => [
      ⟨.language, .attr py!"language" (.str) true⟩,
      ⟨.text, .attr py!"text" (.str) true⟩]
  | .shortNameTypeIec61360 => [
      ⟨.language, .attr py!"language" (.str) true⟩,
      ⟨.text, .attr py!"text" (.str) true⟩]
  | .dataSpecificationIec61360 => [
      ⟨.preferredName, .attr py!"preferredName" (.list (.cls .preferredNameTypeIec61360) false) true⟩,
      ⟨.shortName, .attr py!"shortName" (.list (.cls .shortNameTypeIec61360) false) false⟩,
      ⟨.unit, .attr py!"unit" (.sfv .nonEmptyString) false⟩,
      ⟨.unitId, .attr py!"unitId" (.cls .reference) false⟩,
      ⟨.sourceOfDefinition, .attr py!"sourceOfDefinition" (.sfv .nonEmptyString) false⟩,
      ⟨.symbol, .attr py!"symbol" (.sfv .nonEmptyString) false⟩,
      ⟨.dataType, .attr py!"dataType" (.enum .dataTypeIec61360) false⟩,
      ⟨.definition, .attr py!"definition" (.list (.cls .definitionTypeIec61360) false) false⟩,
      ⟨.valueFormat, .attr py!"valueFormat" (.sfv .nonEmptyString) false⟩,
      ⟨.valueList, .attr py!"valueList" (.cls .valueList) false⟩,
      ⟨.value, .attr py!"value" (.sfv .valueTypeIec61360) false⟩,
      ⟨.levelType, .attr py!"levelType" (.cls .levelType) false⟩]
  | .hasSemantics => [
      ⟨.semanticId, .attr py!"semanticId" (.cls .reference) false⟩,
      ⟨.supplementalSemanticIds, .attr py!"supplementalSemanticIds" (.list (.cls .reference) false) false⟩]
  | .extension => [
      ⟨.semanticId, .attr py!"semanticId" (.cls .reference) false⟩,
      ⟨.supplementalSemanticIds, .attr py!"supplementalSemanticIds" (.list (.cls .reference) false) false⟩,
      ⟨.name, .attr py!"name" (.sfv .nameTypeString) true⟩,
      ⟨.valueType, .attr py!"valueType" (.enum .dataTypeDefXsd) false⟩,
      ⟨.value, .attr py!"value" (.sfv .valueDataType) false⟩,
      ⟨.refersTo, .attr py!"refersTo" (.list (.cls .reference) false) false⟩]
  | .hasExtensions => [
      ⟨.extensions, .attr py!"extensions" (.list (.cls .extension) false) false⟩]
  | .referable => [
      ⟨.extensions, .attr py!"extensions" (.list (.cls .extension) false) false⟩,
      ⟨.category, .attr py!"category" (.sfv .nameTypeString) false⟩,
      ⟨.idShort, .attr py!"idShort" (.sfv .nameTypeString) false⟩,
      ⟨.displayName, .attr py!"displayName" (.list (.cls .multiLanguageNameType) false) false⟩,
      ⟨.description, .attr py!"description" (.list (.cls .multiLanguageTextType) false) false⟩]
  | .hasKind => [
      ⟨.kind, .attr py!"kind" (.enum .modellingKind) false⟩]
  | .administrativeInformation => [
      ⟨.embeddedDataSpecifications, .attr py!"embeddedDataSpecifications" (.list (.cls .embeddedDataSpecification) false) false⟩,
      ⟨.version, .attr py!"version" (.sfv .versionString) false⟩,
      ⟨.revision, .attr py!"revision" (.sfv .revisionString) false⟩,
      ⟨.creator, .attr py!"creator" (.cls .reference) false⟩,
      ⟨.templateId, .attr py!"templateId" (.sfv .identifierString) false⟩]
  | .identifiable => [
      ⟨.extensions, .attr py!"extensions" (.list (.cls .extension) false) false⟩,
      ⟨.category, .attr py!"category" (.sfv .nameTypeString) false⟩,
      ⟨.idShort, .attr py!"idShort" (.sfv .nameTypeString) false⟩,
      ⟨.displayName, .attr py!"displayName" (.list (.cls .multiLanguageNameType) false) false⟩,
      ⟨.description, .attr py!"description" (.list (.cls .multiLanguageTextType) false) false⟩,
      ⟨.administration, .attr py!"administration" (.cls .administrativeInformation) false⟩,
      ⟨.id, .attr py!"id" (.sfv .identifierString) true⟩]
  | .qualifier => [
      ⟨.semanticId, .attr py!"semanticId" (.cls .reference) false⟩,
      ⟨.supplementalSemanticIds, .attr py!"supplementalSemanticIds" (.list (.cls .reference) false) false⟩,
      ⟨.kind, .attr py!"kind" (.enum .qualifierKind) false⟩,
      ⟨.type_, .attr py!"type" (.sfv .nameTypeString) true⟩,
      ⟨.valueType, .attr py!"valueType" (.enum .dataTypeDefXsd) true⟩,
      ⟨.value, .attr py!"value" (.sfv .valueDataType) false⟩,
      ⟨.valueId, .attr py!"valueId" (.cls .reference) false⟩]
  | .qualifiable => [
      ⟨.qualifiers, .attr py!"qualifiers" (.list (.cls .qualifier) false) false⟩]
  | .specificAssetId => [
      ⟨.semanticId, .attr py!"semanticId" (.cls .reference) false⟩,
      ⟨.supplementalSemanticIds, .attr py!"supplementalSemanticIds" (.list (.cls .reference) false) false⟩,
      ⟨.name, .attr py!"name" (.sfv .labelString) true⟩,
      ⟨.value, .attr py!"value" (.sfv .identifierString) true⟩,
      ⟨.externalSubjectId, .attr py!"externalSubjectId" (.cls .reference) false⟩]
  | .resource => [
      ⟨.path, .attr py!"path" (.sfv .pathString) true⟩,
      ⟨.contentType, .attr py!"contentType" (.sfv .contentType) false⟩]
  | .assetInformation => [
      ⟨.assetKind, .attr py!"assetKind" (.enum .assetKind) true⟩,
      ⟨.globalAssetId, .attr py!"globalAssetId" (.sfv .identifierString) false⟩,
      ⟨.specificAssetIds, .attr py!"specificAssetIds" (.list (.cls .specificAssetId) false) false⟩,
      ⟨.assetType, .attr py!"assetType" (.sfv .identifierString) false⟩,
      ⟨.defaultThumbnail, .attr py!"defaultThumbnail" (.cls .resource) false⟩]
  | .submodelElement => [
      ⟨.embeddedDataSpecifications, .attr py!"embeddedDataSpecifications" (.list (.cls .embeddedDataSpecification) false) false⟩,
      ⟨.qualifiers, .attr py!"qualifiers" (.list (.cls .qualifier) false) false⟩,
      ⟨.semanticId, .attr py!"semanticId" (.cls .reference) false⟩,
      ⟨.supplementalSemanticIds, .attr py!"supplementalSemanticIds" (.list (.cls .reference) false) false⟩,
      ⟨.extensions, .attr py!"extensions" (.list (.cls .extension) false) false⟩,
      ⟨.category, .attr py!"category" (.sfv .nameTypeString) false⟩,
      ⟨.idShort, .attr py!"idShort" (.sfv .nameTypeString) false⟩,
      ⟨.displayName, .attr py!"displayName" (.list (.cls .multiLanguageNameType) false) false⟩,
      ⟨.description, .attr py!"description" (.list (.cls .multiLanguageTextType) false) false⟩,
      ⟨.idShortPath, .excluded⟩]
  | .dataElement => [
      ⟨.embeddedDataSpecifications, .attr py!"embeddedDataSpecifications" (.list (.cls .embeddedDataSpecification) false) false⟩,
      ⟨.qualifiers, .attr py!"qualifiers" (.list (.cls .qualifier) false) false⟩,
      ⟨.semanticId, .attr py!"semanticId" (.cls .reference) false⟩,
      ⟨.supplementalSemanticIds, .attr py!"supplementalSemanticIds" (.list (.cls .reference) false) false⟩,
      ⟨.extensions, .attr py!"extensions" (.list (.cls .extension) false) false⟩,
      ⟨.category, .attr py!"category" (.sfv .nameTypeString) false⟩,
      ⟨.idShort, .attr py!"idShort" (.sfv .nameTypeString) false⟩,
      ⟨.displayName, .attr py!"displayName" (.list (.cls .multiLanguageNameType) false) false⟩,
      ⟨.description, .attr py!"description" (.list (.cls .multiLanguageTextType) false) false⟩,
      ⟨.idShortPath, .excluded⟩]
  | .relationshipElement => [
      ⟨.embeddedDataSpecifications, .attr py!"embeddedDataSpecifications" (.list (.cls .embeddedDataSpecification) false) false⟩,
      ⟨.qualifiers, .attr py!"qualifiers" (.list (.cls .qualifier) false) false⟩,
      ⟨.semanticId, .attr py!"semanticId" (.cls .reference) false⟩,
      ⟨.supplementalSemanticIds, .attr py!"supplementalSemanticIds" (.list (.cls .reference) false) false⟩,
      ⟨.extensions, .attr py!"extensions" (.list (.cls .extension) false) false⟩,
      ⟨.category, .attr py!"category" (.sfv .nameTypeString) false⟩,
      ⟨.idShort, .attr py!"idShort" (.sfv .nameTypeString) false⟩,
      ⟨.displayName, .attr py!"displayName" (.list (.cls .multiLanguageNameType) false) false⟩,
      ⟨.description, .attr py!"description" (.list (.cls .multiLanguageTextType) false) false⟩,
      ⟨.idShortPath, .excluded⟩,
      ⟨.first_, .attr py!"first" (.cls .reference) true⟩,
      ⟨.second, .attr py!"second" (.cls .reference) true⟩]
  | .annotatedRelationshipElement => [
      ⟨.embeddedDataSpecifications, .attr py!"embeddedDataSpecifications" (.list (.cls .embeddedDataSpecification) false) false⟩,
      ⟨.qualifiers, .attr py!"qualifiers" (.list (.cls .qualifier) false) false⟩,
      ⟨.semanticId, .attr py!"semanticId" (.cls .reference) false⟩,
      ⟨.supplementalSemanticIds, .attr py!"supplementalSemanticIds" (.list (.cls .reference) false) false⟩,
      ⟨.extensions, .attr py!"extensions" (.list (.cls .extension) false) false⟩,
      ⟨.category, .attr py!"category" (.sfv .nameTypeString) false⟩,
      ⟨.idShort, .attr py!"idShort" (.sfv .nameTypeString) false⟩,
      ⟨.displayName, .attr py!"displayName" (.list (.cls .multiLanguageNameType) false) false⟩,
      ⟨.description, .attr py!"description" (.list (.cls .multiLanguageTextType) false) false⟩,
      ⟨.idShortPath, .excluded⟩,
      ⟨.first_, .attr py!"first" (.cls .reference) true⟩,
      ⟨.second, .attr py!"second" (.cls .reference) true⟩,
      ⟨.annotations, .attr py!"annotations" (.list (.cls .dataElement) false) false⟩]
  | .eventElement => [
      ⟨.embeddedDataSpecifications, .attr py!"embeddedDataSpecifications" (.list (.cls .embeddedDataSpecification) false) false⟩,
      ⟨.qualifiers, .attr py!"qualifiers" (.list (.cls .qualifier) false) false⟩,
      ⟨.semanticId, .attr py!"semanticId" (.cls .reference) false⟩,
      ⟨.supplementalSemanticIds, .attr py!"supplementalSemanticIds" (.list (.cls .reference) false) false⟩,
      ⟨.extensions, .attr py!"extensions" (.list (.cls .extension) false) false⟩,
      ⟨.category, .attr py!"category" (.sfv .nameTypeString) false⟩,
      ⟨.idShort, .attr py!"idShort" (.sfv .nameTypeString) false⟩,
      ⟨.displayName, .attr py!"displayName" (.list (.cls .multiLanguageNameType) false) false⟩,
      ⟨.description, .attr py!"description" (.list (.cls .multiLanguageTextType) false) false⟩,
      ⟨.idShortPath, .excluded⟩]
  | .basicEventElement => [
      ⟨.embeddedDataSpecifications, .attr py!"embeddedDataSpecifications" (.list (.cls .embeddedDataSpecification) false) false⟩,
      ⟨.qualifiers, .attr py!"qualifiers" (.list (.cls .qualifier) false) false⟩,
      ⟨.semanticId, .attr py!"semanticId" (.cls .reference) false⟩,
      ⟨.supplementalSemanticIds, .attr py!"supplementalSemanticIds" (.list (.cls .reference) false) false⟩,
      ⟨.extensions, .attr py!"extensions" (.list (.cls .extension) false) false⟩,
      ⟨.category, .attr py!"category" (.sfv .nameTypeString) false⟩,
      ⟨.idShort, .attr py!"idShort" (.sfv .nameTypeString) false⟩,
      ⟨.displayName, .attr py!"displayName" (.list (.cls .multiLanguageNameType) false) false⟩,
      ⟨.description, .attr py!"description" (.list (.cls .multiLanguageTextType) false) false⟩,
      ⟨.idShortPath, .excluded⟩,
      ⟨.observed, .attr py!"observed" (.cls .reference) true⟩,
      ⟨.direction, .attr py!"direction" (.enum .direction) true⟩,
      ⟨.state, .attr py!"state" (.enum .stateOfEvent) true⟩,
      ⟨.messageTopic, .attr py!"messageTopic" (.sfv .messageTopicString) false⟩,
      ⟨.messageBroker, .attr py!"messageBroker" (.cls .reference) false⟩,
      ⟨.lastUpdate, .attr py!"lastUpdate" (.sfv .dateTime) false⟩,
      ⟨.minInterval, .attr py!"minInterval" (.sfv .duration) false⟩,
      ⟨.maxInterval, .attr py!"maxInterval" (.sfv .duration) false⟩]
  | .blob => [
      ⟨.embeddedDataSpecifications, .attr py!"embeddedDataSpecifications" (.list (.cls .embeddedDataSpecification) false) false⟩,
      ⟨.qualifiers, .attr py!"qualifiers" (.list (.cls .qualifier) false) false⟩,
      ⟨.semanticId, .attr py!"semanticId" (.cls .reference) false⟩,
      ⟨.supplementalSemanticIds, .attr py!"supplementalSemanticIds" (.list (.cls .reference) false) false⟩,
      ⟨.extensions, .attr py!"extensions" (.list (.cls .extension) false) false⟩,
      ⟨.category, .attr py!"category" (.sfv .nameTypeString) false⟩,
      ⟨.idShort, .attr py!"idShort" (.sfv .nameTypeString) false⟩,
      ⟨.displayName, .attr py!"displayName" (.list (.cls .multiLanguageNameType) false) false⟩,
      ⟨.description, .attr py!"description" (.list (.cls .multiLanguageTextType) false) false⟩,
      ⟨.idShortPath, .excluded⟩,
      ⟨.value, .attr py!"value" (.sfv .blobString) false⟩,
      ⟨.contentType, .attr py!"contentType" (.sfv .contentType) true⟩]
  | .capability => [
      ⟨.embeddedDataSpecifications, .attr py!"embeddedDataSpecifications" (.list (.cls .embeddedDataSpecification) false) false⟩,
      ⟨.qualifiers, .attr py!"qualifiers" (.list (.cls .qualifier) false) false⟩,
      ⟨.semanticId, .attr py!"semanticId" (.cls .reference) false⟩,
      ⟨.supplementalSemanticIds, .attr py!"supplementalSemanticIds" (.list (.cls .reference) false) false⟩,
      ⟨.extensions, .attr py!"extensions" (.list (.cls .extension) false) false⟩,
      ⟨.category, .attr py!"category" (.sfv .nameTypeString) false⟩,
      ⟨.idShort, .attr py!"idShort" (.sfv .nameTypeString) false⟩,
      ⟨.displayName, .attr py!"displayName" (.list (.cls .multiLanguageNameType) false) false⟩,
      ⟨.description, .attr py!"description" (.list (.cls .multiLanguageTextType) false) false⟩,
      ⟨.idShortPath, .excluded⟩]
  | .entity => [
      ⟨.embeddedDataSpecifications, .attr py!"embeddedDataSpecifications" (.list (.cls .embeddedDataSpecification) false) false⟩,
      ⟨.qualifiers, .attr py!"qualifiers" (.list (.cls .qualifier) false) false⟩,
      ⟨.semanticId, .attr py!"semanticId" (.cls .reference) false⟩,
      ⟨.supplementalSemanticIds, .attr py!"supplementalSemanticIds" (.list (.cls .reference) false) false⟩,
      ⟨.extensions, .attr py!"extensions" (.list (.cls .extension) false) false⟩,
      ⟨.category, .attr py!"category" (.sfv .nameTypeString) false⟩,
      ⟨.idShort, .attr py!"idShort" (.sfv .nameTypeString) false⟩,
      ⟨.displayName, .attr py!"displayName" (.list (.cls .multiLanguageNameType) false) false⟩,
      ⟨.description, .attr py!"description" (.list (.cls .multiLanguageTextType) false) false⟩,
      ⟨.idShortPath, .excluded⟩,
      ⟨.statements, .attr py!"statements" (.list (.cls .submodelElement) false) false⟩,
      ⟨.entityType, .attr py!"entityType" (.enum .entityType) true⟩,
      ⟨.globalAssetId, .attr py!"globalAssetId" (.sfv .identifierString) false⟩,
      ⟨.specificAssetIds, .attr py!"specificAssetIds" (.list (.cls .specificAssetId) false) false⟩]
  | .file => [
      ⟨.embeddedDataSpecifications, .attr py!"embeddedDataSpecifications" (.list (.cls .embeddedDataSpecification) false) false⟩,
      ⟨.qualifiers, .attr py!"qualifiers" (.list (.cls .qualifier) false) false⟩,
      ⟨.semanticId, .attr py!"semanticId" (.cls .reference) false⟩,
      ⟨.supplementalSemanticIds, .attr py!"supplementalSemanticIds" (.list (.cls .reference) false) false⟩,
      ⟨.extensions, .attr py!"extensions" (.list (.cls .extension) false) false⟩,
      ⟨.category, .attr py!"category" (.sfv .nameTypeString) false⟩,
      ⟨.idShort, .attr py!"idShort" (.sfv .nameTypeString) false⟩,
      ⟨.displayName, .attr py!"displayName" (.list (.cls .multiLanguageNameType) false) false⟩,
      ⟨.description, .attr py!"description" (.list (.cls .multiLanguageTextType) false) false⟩,
      ⟨.idShortPath, .excluded⟩,
      ⟨.value, .attr py!"value" (.sfv .pathString) false⟩,
      ⟨.contentType, .attr py!"contentType" (.sfv .contentType) true⟩]
  | .multiLanguageProperty => [
      ⟨.embeddedDataSpecifications, .attr py!"embeddedDataSpecifications" (.list (.cls .embeddedDataSpecification) false) false⟩,
      ⟨.qualifiers, .attr py!"qualifiers" (.list (.cls .qualifier) false) false⟩,
      ⟨.semanticId, .attr py!"semanticId" (.cls .reference) false⟩,
      ⟨.supplementalSemanticIds, .attr py!"supplementalSemanticIds" (.list (.cls .reference) false) false⟩,
      ⟨.extensions, .attr py!"extensions" (.list (.cls .extension) false) false⟩,
      ⟨.category, .attr py!"category" (.sfv .nameTypeString) false⟩,
      ⟨.idShort, .attr py!"idShort" (.sfv .nameTypeString) false⟩,
      ⟨.displayName, .attr py!"displayName" (.list (.cls .multiLanguageNameType) false) false⟩,
      ⟨.description, .attr py!"description" (.list (.cls .multiLanguageTextType) false) false⟩,
      ⟨.idShortPath, .excluded⟩,
      ⟨.value, .attr py!"value" (.list (.cls .multiLanguageTextType) false) false⟩,
      ⟨.valueId, .attr py!"valueId" (.cls .reference) false⟩]
  | .operationVariable => [
      ⟨.value, .attr py!"value" (.cls .submodelElement) true⟩]
  | .operation => [
      ⟨.embeddedDataSpecifications, .attr py!"embeddedDataSpecifications" (.list (.cls .embeddedDataSpecification) false) false⟩,
      ⟨.qualifiers, .attr py!"qualifiers" (.list (.cls .qualifier) false) false⟩,
      ⟨.semanticId, .attr py!"semanticId" (.cls .reference) false⟩,
      ⟨.supplementalSemanticIds, .attr py!"supplementalSemanticIds" (.list (.cls .reference) false) false⟩,
      ⟨.extensions, .attr py!"extensions" (.list (.cls .extension) false) false⟩,
      ⟨.category, .attr py!"category" (.sfv .nameTypeString) false⟩,
      ⟨.idShort, .attr py!"idShort" (.sfv .nameTypeString) false⟩,
      ⟨.displayName, .attr py!"displayName" (.list (.cls .multiLanguageNameType) false) false⟩,
      ⟨.description, .attr py!"description" (.list (.cls .multiLanguageTextType) false) false⟩,
      ⟨.idShortPath, .excluded⟩,
      ⟨.inputVariables, .attr py!"inputVariables" (.list (.cls .operationVariable) false) false⟩,
      ⟨.outputVariables, .attr py!"outputVariables" (.list (.cls .operationVariable) false) false⟩,
      ⟨.inoutputVariables, .attr py!"inoutputVariables" (.list (.cls .operationVariable) false) false⟩]
  | .property => [
      ⟨.embeddedDataSpecifications, .attr py!"embeddedDataSpecifications" (.list (.cls .embeddedDataSpecification) false) false⟩,
      ⟨.qualifiers, .attr py!"qualifiers" (.list (.cls .qualifier) false) false⟩,
      ⟨.semanticId, .attr py!"semanticId" (.cls .reference) false⟩,
      ⟨.supplementalSemanticIds, .attr py!"supplementalSemanticIds" (.list (.cls .reference) false) false⟩,
      ⟨.extensions, .attr py!"extensions" (.list (.cls .extension) false) false⟩,
      ⟨.category, .attr py!"category" (.sfv .nameTypeString) false⟩,
      ⟨.idShort, .attr py!"idShort" (.sfv .nameTypeString) false⟩,
      ⟨.displayName, .attr py!"displayName" (.list (.cls .multiLanguageNameType) false) false⟩,
      ⟨.description, .attr py!"description" (.list (.cls .multiLanguageTextType) false) false⟩,
      ⟨.idShortPath, .excluded⟩,
      ⟨.valueType, .attr py!"valueType" (.enum .dataTypeDefXsd) true⟩,
      ⟨.value, .attr py!"value" (.sfv .valueDataType) false⟩,
      ⟨.valueId, .attr py!"valueId" (.cls .reference) false⟩]
  | .range => [
      ⟨.embeddedDataSpecifications, .attr py!"embeddedDataSpecifications" (.list (.cls .embeddedDataSpecification) false) false⟩,
      ⟨.qualifiers, .attr py!"qualifiers" (.list (.cls .qualifier) false) false⟩,
      ⟨.semanticId, .attr py!"semanticId" (.cls .reference) false⟩,
      ⟨.supplementalSemanticIds, .attr py!"supplementalSemanticIds" (.list (.cls .reference) false) false⟩,
      ⟨.extensions, .attr py!"extensions" (.list (.cls .extension) false) false⟩,
      ⟨.category, .attr py!"category" (.sfv .nameTypeString) false⟩,
      ⟨.idShort, .attr py!"idShort" (.sfv .nameTypeString) false⟩,
      ⟨.displayName, .attr py!"displayName" (.list (.cls .multiLanguageNameType) false) false⟩,
      ⟨.description, .attr py!"description" (.list (.cls .multiLanguageTextType) false) false⟩,
      ⟨.idShortPath, .excluded⟩,
      ⟨.valueType, .attr py!"valueType" (.enum .dataTypeDefXsd) true⟩,
      ⟨.min, .attr py!"min" (.sfv .valueDataType) false⟩,
      ⟨.max, .attr py!"max" (.sfv .valueDataType) false⟩]
  | .referenceElement => [
      ⟨.embeddedDataSpecifications, .attr py!"embeddedDataSpecifications" (.list (.cls .embeddedDataSpecification) false) false⟩,
      ⟨.qualifiers, .attr py!"qualifiers" (.list (.cls .qualifier) false) false⟩,
      ⟨.semanticId, .attr py!"semanticId" (.cls .reference) false⟩,
      ⟨.supplementalSemanticIds, .attr py!"supplementalSemanticIds" (.list (.cls .reference) false) false⟩,
      ⟨.extensions, .attr py!"extensions" (.list (.cls .extension) false) false⟩,
      ⟨.category, .attr py!"category" (.sfv .nameTypeString) false⟩,
      ⟨.idShort, .attr py!"idShort" (.sfv .nameTypeString) false⟩,
      ⟨.displayName, .attr py!"displayName" (.list (.cls .multiLanguageNameType) false) false⟩,
      ⟨.description, .attr py!"description" (.list (.cls .multiLanguageTextType) false) false⟩,
      ⟨.idShortPath, .excluded⟩,
      ⟨.value, .attr py!"value" (.cls .reference) false⟩]
  | .submodelElementCollection => [
      ⟨.embeddedDataSpecifications, .attr py!"embeddedDataSpecifications" (.list (.cls .embeddedDataSpecification) false) false⟩,
      ⟨.qualifiers, .attr py!"qualifiers" (.list (.cls .qualifier) false) false⟩,
      ⟨.semanticId, .attr py!"semanticId" (.cls .reference) false⟩,
      ⟨.supplementalSemanticIds, .attr py!"supplementalSemanticIds" (.list (.cls .reference) false) false⟩,
      ⟨.extensions, .attr py!"extensions" (.list (.cls .extension) false) false⟩,
      ⟨.category, .attr py!"category" (.sfv .nameTypeString) false⟩,
      ⟨.idShort, .attr py!"idShort" (.sfv .nameTypeString) false⟩,
      ⟨.displayName, .attr py!"displayName" (.list (.cls .multiLanguageNameType) false) false⟩,
      ⟨.description, .attr py!"description" (.list (.cls .multiLanguageTextType) false) false⟩,
      ⟨.idShortPath, .excluded⟩,
      ⟨.value, .attr py!"value" (.list (.cls .submodelElement) false) false⟩]
  | .submodelElementList => [
      ⟨.embeddedDataSpecifications, .attr py!"embeddedDataSpecifications" (.list (.cls .embeddedDataSpecification) false) false⟩,
      ⟨.qualifiers, .attr py!"qualifiers" (.list (.cls .qualifier) false) false⟩,
      ⟨.semanticId, .attr py!"semanticId" (.cls .reference) false⟩,
      ⟨.supplementalSemanticIds, .attr py!"supplementalSemanticIds" (.list (.cls .reference) false) false⟩,
      ⟨.extensions, .attr py!"extensions" (.list (.cls .extension) false) false⟩,
      ⟨.category, .attr py!"category" (.sfv .nameTypeString) false⟩,
      ⟨.idShort, .attr py!"idShort" (.sfv .nameTypeString) false⟩,
      ⟨.displayName, .attr py!"displayName" (.list (.cls .multiLanguageNameType) false) false⟩,
      ⟨.description, .attr py!"description" (.list (.cls .multiLanguageTextType) false) false⟩,
      ⟨.idShortPath, .excluded⟩,
      ⟨.orderRelevant, .attr py!"orderRelevant" (.bool) false⟩,
      ⟨.semanticIdListElement, .attr py!"semanticIdListElement" (.cls .reference) false⟩,
      ⟨.typeValueListElement, .attr py!"typeValueListElement" (.enum .keyType) true⟩,
      ⟨.valueTypeListElement, .attr py!"valueTypeListElement" (.enum .dataTypeDefXsd) false⟩,
      ⟨.value, .attr py!"value" (.list (.cls .submodelElement) false) false⟩]
  | .assetAdministrationShell => [
      ⟨.embeddedDataSpecifications, .attr py!"embeddedDataSpecifications" (.list (.cls .embeddedDataSpecification) false) false⟩,
      ⟨.extensions, .attr py!"extensions" (.list (.cls .extension) false) false⟩,
      ⟨.category, .attr py!"category" (.sfv .nameTypeString) false⟩,
      ⟨.idShort, .attr py!"idShort" (.sfv .nameTypeString) false⟩,
      ⟨.displayName, .attr py!"displayName" (.list (.cls .multiLanguageNameType) false) false⟩,
      ⟨.description, .attr py!"description" (.list (.cls .multiLanguageTextType) false) false⟩,
      ⟨.administration, .attr py!"administration" (.cls .administrativeInformation) false⟩,
      ⟨.id, .attr py!"id" (.sfv .identifierString) true⟩,
      ⟨.derivedFrom, .attr py!"derivedFrom" (.cls .reference) false⟩,
      ⟨.assetInformation, .attr py!"assetInformation" (.cls .assetInformation) true⟩,
      ⟨.submodels, .attr py!"submodels" (.list (.cls .reference) false) false⟩]
  | .submodel => [
      ⟨.embeddedDataSpecifications, .attr py!"embeddedDataSpecifications" (.list (.cls .embeddedDataSpecification) false) false⟩,
      ⟨.qualifiers, .attr py!"qualifiers" (.list (.cls .qualifier) false) false⟩,
      ⟨.semanticId, .attr py!"semanticId" (.cls .reference) false⟩,
      ⟨.supplementalSemanticIds, .attr py!"supplementalSemanticIds" (.list (.cls .reference) false) false⟩,
      ⟨.kind, .attr py!"kind" (.enum .modellingKind) false⟩,
      ⟨.extensions, .attr py!"extensions" (.list (.cls .extension) false) false⟩,
      ⟨.category, .attr py!"category" (.sfv .nameTypeString) false⟩,
      ⟨.idShort, .attr py!"idShort" (.sfv .nameTypeString) false⟩,
      ⟨.displayName, .attr py!"displayName" (.list (.cls .multiLanguageNameType) false) false⟩,
      ⟨.description, .attr py!"description" (.list (.cls .multiLanguageTextType) false) false⟩,
      ⟨.administration, .attr py!"administration" (.cls .administrativeInformation) false⟩,
      ⟨.id, .attr py!"id" (.sfv .identifierString) true⟩,
      ⟨.submodelElements, .attr py!"submodelElements" (.list (.cls .submodelElement) false) false⟩]
  | .conceptDescription => [
      ⟨.embeddedDataSpecifications, .attr py!"embeddedDataSpecifications" (.list (.cls .embeddedDataSpecification) false) false⟩,
      ⟨.extensions, .attr py!"extensions" (.list (.cls .extension) false) false⟩,
      ⟨.category, .attr py!"category" (.sfv .nameTypeString) false⟩,
      ⟨.idShort, .attr py!"idShort" (.sfv .nameTypeString) false⟩,
      ⟨.displayName, .attr py!"displayName" (.list (.cls .multiLanguageNameType) false) false⟩,
      ⟨.description, .attr py!"description" (.list (.cls .multiLanguageTextType) false) false⟩,
      ⟨.administration, .attr py!"administration" (.cls .administrativeInformation) false⟩,
      ⟨.id, .attr py!"id" (.sfv .identifierString) true⟩,
      ⟨.isCaseOf, .attr py!"isCaseOf" (.list (.cls .reference) false) false⟩]
  | .environment => [
      ⟨.assetAdministrationShells, .attr py!"assetAdministrationShells" (.list (.cls .assetAdministrationShell) false) false⟩,
      ⟨.submodels, .attr py!"submodels" (.list (.cls .submodel) false) false⟩,
      ⟨.conceptDescriptions, .attr py!"conceptDescriptions" (.list (.cls .conceptDescription) false) false⟩]

/-- concrete subclasses of each class -/
def subclassesOf : Cls → List Cls
  | .langStringSet => [.multiLanguageNameType, .multiLanguageTextType, .definitionTypeIec61360, .preferredNameTypeIec61360, .shortNameTypeIec61360]
  | .dataSpecificationContent => [.dataSpecificationIec61360]
  | .hasDataSpecification => [.administrativeInformation, .blob, .file, .multiLanguageProperty, .property, .range, .referenceElement, .relationshipElement, .annotatedRelationshipElement, .eventElement, .basicEventElement, .capability, .entity, .operation, .submodelElementCollection, .submodelElementList, .assetAdministrationShell, .submodel, .conceptDescription]
  | .hasSemantics => [.extension, .qualifier, .specificAssetId, .blob, .file, .multiLanguageProperty, .property, .range, .referenceElement, .relationshipElement, .annotatedRelationshipElement, .eventElement, .basicEventElement, .capability, .entity, .operation, .submodelElementCollection, .submodelElementList, .submodel]
  | .hasExtensions => [.referable, .identifiable, .assetAdministrationShell, .submodel, .conceptDescription, .blob, .file, .multiLanguageProperty, .property, .range, .referenceElement, .relationshipElement, .annotatedRelationshipElement, .eventElement, .basicEventElement, .capability, .entity, .operation, .submodelElementCollection, .submodelElementList]
  | .referable => [.identifiable, .assetAdministrationShell, .submodel, .conceptDescription, .blob, .file, .multiLanguageProperty, .property, .range, .referenceElement, .relationshipElement, .annotatedRelationshipElement, .eventElement, .basicEventElement, .capability, .entity, .operation, .submodelElementCollection, .submodelElementList]
  | .hasKind => [.submodel]
  | .identifiable => [.assetAdministrationShell, .submodel, .conceptDescription]
  | .qualifiable => [.blob, .file, .multiLanguageProperty, .property, .range, .referenceElement, .relationshipElement, .annotatedRelationshipElement, .eventElement, .basicEventElement, .capability, .entity, .operation, .submodelElementCollection, .submodelElementList, .submodel]
  | .submodelElement => [.blob, .file, .multiLanguageProperty, .property, .range, .referenceElement, .relationshipElement, .annotatedRelationshipElement, .eventElement, .basicEventElement, .capability, .entity, .operation, .submodelElementCollection, .submodelElementList]
  | .dataElement => [.blob, .file, .multiLanguageProperty, .property, .range, .referenceElement]
  | .relationshipElement => [.annotatedRelationshipElement]
  | .eventElement => [.basicEventElement]
  | _ => []

/-- classes that need a discriminator -/
def needsModelTypeOf : Cls → Bool
  | .identifiable => true
  | .assetAdministrationShell => true
  | .submodel => true
  | .conceptDescription => true
  | _ => false

/-- the checks of each class, in the order they are called -/
def checkTable : Cls → List Method
  | .langStringSet => [.langStringSet_language, .langStringSet_text]
  | .multiLanguageNameType => [.langStringSet_language, .langStringSet_text]
  | .multiLanguageTextType => [.langStringSet_language, .langStringSet_text]
  | .reference => [.reference_aasd_121, .reference_aasd_122, .reference_aasd_123, .reference_aasd_124, .reference_aasd_125, .reference_aasd_126, .reference_aasd_127, .reference_aasd_128]
  | .embeddedDataSpecification => [.embeddedDataSpecification_reference]
  | .definitionTypeIec61360 => [.langStringSet_language, .langStringSet_text]
  | .preferredNameTypeIec61360 => [.langStringSet_language, .langStringSet_text]
  | .shortNameTypeIec61360 => [.langStringSet_language, .langStringSet_text]
  | .dataSpecificationIec61360 => [.dataSpecificationIec61360_aasc_3a_002, .dataSpecificationIec61360_aasc_3a_009, .dataSpecificationIec61360_aasc_3a_010]
  | .hasSemantics => [.hasSemantics_aasd_118]
  | .extension => [.hasSemantics_aasd_118, .extension_value_type]
  | .referable => [.referable_constraint_aasd_002]
  | .administrativeInformation => [.administrativeInformation_constraint_aasd_005]
  | .identifiable => [.referable_constraint_aasd_002]
  | .qualifier => [.qualifier_aasd_006, .qualifier_aasd_020, .hasSemantics_aasd_118, .qualifier_value_type]
  | .specificAssetId => [.hasSemantics_aasd_118, .specificAssetId_aasd_133]
  | .assetInformation => [.assetInformation_aasd_116, .assetInformation_aasd_131]
  | .submodelElement => [.submodelElement_aasc_3a_050, .hasSemantics_aasd_118, .referable_constraint_aasd_002]
  | .dataElement => [.submodelElement_aasc_3a_050, .dataElement_aasd_090, .hasSemantics_aasd_118, .referable_constraint_aasd_002]
  | .relationshipElement => [.submodelElement_aasc_3a_050, .hasSemantics_aasd_118, .referable_constraint_aasd_002]
  | .annotatedRelationshipElement => [.submodelElement_aasc_3a_050, .annotatedRelationshipElement_aasd_117, .hasSemantics_aasd_118, .referable_constraint_aasd_002]
  | .eventElement => [.submodelElement_aasc_3a_050, .hasSemantics_aasd_118, .referable_constraint_aasd_002]
  | .basicEventElement => [.submodelElement_aasc_3a_050, .hasSemantics_aasd_118, .referable_constraint_aasd_002, .basicEventElement_message_broker, .basicEventElement_observed]
  | .blob => [.submodelElement_aasc_3a_050, .dataElement_aasd_090, .hasSemantics_aasd_118, .referable_constraint_aasd_002]
  | .capability => [.submodelElement_aasc_3a_050, .hasSemantics_aasd_118, .referable_constraint_aasd_002]
  | .entity => [.entity_aad_117, .submodelElement_aasc_3a_050, .entity_aasd_014, .hasSemantics_aasd_118, .referable_constraint_aasd_002]
  | .file => [.submodelElement_aasc_3a_050, .dataElement_aasd_090, .hasSemantics_aasd_118, .referable_constraint_aasd_002]
  | .multiLanguageProperty => [.submodelElement_aasc_3a_050, .dataElement_aasd_090, .hasSemantics_aasd_118, .referable_constraint_aasd_002, .multiLanguageProperty_constraint_aasd_012]
  | .operationVariable => [.operationVariable_aasd_117]
  | .operation => [.submodelElement_aasc_3a_050, .hasSemantics_aasd_118, .operation_aasd_134, .referable_constraint_aasd_002]
  | .property => [.submodelElement_aasc_3a_050, .property_aasd_007, .dataElement_aasd_090, .hasSemantics_aasd_118, .referable_constraint_aasd_002, .property_value_type]
  | .range => [.submodelElement_aasc_3a_050, .dataElement_aasd_090, .hasSemantics_aasd_118, .referable_constraint_aasd_002, .range_value_type_max, .range_value_type_min]
  | .referenceElement => [.submodelElement_aasc_3a_050, .dataElement_aasd_090, .hasSemantics_aasd_118, .referable_constraint_aasd_002]
  | .submodelElementCollection => [.submodelElement_aasc_3a_050, .submodelElementCollection_aasd_022, .submodelElementCollection_aasd_117, .hasSemantics_aasd_118, .referable_constraint_aasd_002]
  | .submodelElementList => [.submodelElement_aasc_3a_050, .submodelElementList_aasd_107, .submodelElementList_aasd_108, .submodelElementList_aasd_109, .submodelElementList_aasd_114, .submodelElementList_aasd_115, .hasSemantics_aasd_118, .submodelElementList_aasd_120, .referable_constraint_aasd_002, .submodelElementList_type_value_list_element]
  | .assetAdministrationShell => [.referable_constraint_aasd_002, .assetAdministrationShell_derived_from, .assetAdministrationShell_submodels]
  | .submodel => [.submodel_aasd_022, .submodel_aasd_117, .hasSemantics_aasd_118, .submodel_aasd_119, .submodel_aasd_129, .referable_constraint_aasd_002]
  | .conceptDescription => [.conceptDescription_aasc_3a_003, .conceptDescription_aasc_3a_004, .conceptDescription_aasc_3a_005, .conceptDescription_aasc_3a_006, .conceptDescription_aasc_3a_007, .conceptDescription_aasc_3a_008, .referable_constraint_aasd_002]
  | _ => []

end Verif.Aas
