import Verif.Model
import Verif.Generate
import Verif.Adapter

/-!
# The classes of responses, `aas_test_engines/test_cases/v3_0/interfaces/*.py`

Responses are parsed by the parser of the meta-model, for a larger set of classes: those of the meta-model and the dataclasses declared
in the interfaces. The methods of the classes of the meta-model work on values of the meta-model (`projVal`).
-/

namespace Verif.Api
open Verif Verif.Parse Verif.Aas

/-- the subclasses of `PagedResult` (shared.py 127-129) -/
inductive Page
  /-- aas_repo.py 19-21 `GetAllShellsResponse` -/
  | shells
  /-- aas_repo.py 24-26 `GetAllShellsReferenceResponse` -/
  | shellRefs
  /-- aas.py 24-26 and submodel_repo.py 24-26 `GetAllSubmodelReferencesResponse` -/
  | submodelRefs
  /-- submodel_repo.py 39-41 `GetAllSubmodelsResponse` -/
  | submodels
  /-- submodel_repo.py 47-49 `GetAllSubmodelsValueResponse` -/
  | submodelValues
  /-- submodel_repo.py 55-57 `GetAllSubmodelsPathResponse` -/
  | submodelPaths
  /-- submodel.py 49-51 `GetAllSubmodelElementsResponse` -/
  | elements
  /-- submodel.py 57-59 `GetAllSubmodelElementsValueOnlyResponse` -/
  | elementValues
  /-- submodel.py 79-81 `GetAllSubmodelElementsReferenceResponse` -/
  | elementRefs
  /-- submodel.py 87-89 `GetAllSubmodelElementsPathResponse` -/
  | elementPaths
  deriving DecidableEq, Repr

/-- the classes of responses -/
inductive RCls
  | model (c : Cls)
  /-- shared.py 105-111 -/
  | message
  /-- shared.py 114-116 -/
  | errorResult
  /-- shared.py 122-124 -/
  | pagingMetadata
  | page (p : Page)
  /-- submodel.py 65-73 -/
  | unconstrainedReference
  /-- description.py 15-17 -/
  | serviceDescription
  deriving DecidableEq, Repr

inductive REnum
  | model (e : EnumCls)
  /-- shared.py 97-102 -/
  | messageType
  deriving DecidableEq, Repr

inductive RFld
  | model (f : Fld)
  | code | correlationId | messageType | text | timestamp | messages
  | cursor | pagingMetadata | result | type_ | referredSemanticId | keys | profiles
  deriving DecidableEq, Repr

abbrev RTy := Ty RCls REnum SfvCls
abbrev RVal := Val RCls REnum SfvCls RFld
abbrev RField := Field RCls REnum SfvCls RFld

/-- a type of the meta-model among the types of responses -/
def embTy : ATy → RTy
  | .str => .str
  | .bool => .bool
  | .any => .any
  | .none => .none
  | .number => .number
  | .bytes => .bytes
  | .enum e => .enum (.model e)
  | .sfv s => .sfv s
  | .cls c => .cls (.model c)
  | .list i ae => .list (embTy i) ae

def embSlot : Slot Cls EnumCls SfvCls → Slot RCls REnum SfvCls
  | .attr key ty req => .attr key (embTy ty) req
  | .excluded => .excluded

def embField (f : AField) : RField := ⟨.model f.name, embSlot f.slot⟩

mutual
/-- a value of the meta-model among the values of responses -/
def embVal : AVal → RVal
  | .none => .none
  | .invalid => .invalid
  | .foreign => .foreign
  | .str s => .str s
  | .bool b => .bool b
  | .enum e v => .enum (.model e) v
  | .sfv c s => .sfv c s
  | .list l => .list (embVals l)
  | .obj c attrs => .obj (.model c) (embAttrs attrs)
  | .path a b t => .path a b t
def embVals : List AVal → List RVal
  | [] => []
  | v :: vs => embVal v :: embVals vs
def embAttrs : List (Fld × AVal) → List (RFld × RVal)
  | [] => []
  | (f, v) :: rest => (.model f, embVal v) :: embAttrs rest
end

mutual
/-- the value of the meta-model, if it is one -/
def projVal : RVal → Option AVal
  | .none => some .none
  | .invalid => some .invalid
  | .foreign => some .foreign
  | .str s => some (.str s)
  | .bool b => some (.bool b)
  | .enum (.model e) v => some (.enum e v)
  | .enum .messageType _ => none
  | .sfv c s => some (.sfv c s)
  | .list l => (projVals l).map .list
  | .obj (.model c) attrs => (projAttrs attrs).map (.obj c)
  | .obj _ _ => none
  | .path a b t => some (.path a b t)
def projVals : List RVal → Option (List AVal)
  | [] => some []
  | v :: vs =>
    match projVal v, projVals vs with
    | some v, some vs => some (v :: vs)
    | _, _ => none
def projAttrs : List (RFld × RVal) → Option (List (Fld × AVal))
  | [] => some []
  | (.model f, v) :: rest =>
    match projVal v, projAttrs rest with
    | some v, some rest => some ((f, v) :: rest)
    | _, _ => none
  | _ :: _ => none
end

/-- the items of a page -/
def Page.item : Page → RTy
  | .shells => .cls (.model .assetAdministrationShell)
  | .shellRefs => .cls (.model .reference)
  | .submodelRefs => .cls (.model .reference)
  | .submodels => .cls (.model .submodel)
  | .submodelValues => .any
  | .submodelPaths => .str
  | .elements => .cls (.model .submodelElement)
  | .elementValues => .any
  | .elementRefs => .cls .unconstrainedReference
  | .elementPaths => .str

def Page.pyName : Page → Str
  | .shells => py!"GetAllShellsResponse"
  | .shellRefs => py!"GetAllShellsReferenceResponse"
  | .submodelRefs => py!"GetAllSubmodelReferencesResponse"
  | .submodels => py!"GetAllSubmodelsResponse"
  | .submodelValues => py!"GetAllSubmodelsValueResponse"
  | .submodelPaths => py!"GetAllSubmodelsPathResponse"
  | .elements => py!"GetAllSubmodelElementsResponse"
  | .elementValues => py!"GetAllSubmodelElementsValueOnlyResponse"
  | .elementRefs => py!"GetAllSubmodelElementsReferenceResponse"
  | .elementPaths => py!"GetAllSubmodelElementsPathResponse"

/-- the fields of the classes; names in the document are in camel case (parse.py 131-132) unless `force_name` is given -/
def respFields : RCls → List RField
  | .model c => (fieldsOf c).map embField
  | .message => [⟨.code, .attr py!"code" .str false⟩, ⟨.correlationId, .attr py!"correlationId" .str false⟩,
      ⟨.messageType, .attr py!"messageType" (.enum .messageType) false⟩, ⟨.text, .attr py!"text" .str false⟩,
      ⟨.timestamp, .attr py!"timestamp" .str false⟩]
  | .errorResult => [⟨.messages, .attr py!"messages" (.list (.cls .message) true) false⟩]
  | .pagingMetadata => [⟨.cursor, .attr py!"cursor" .str false⟩]
  | .page p => [⟨.pagingMetadata, .attr py!"paging_metadata" (.cls .pagingMetadata) true⟩, ⟨.result, .attr py!"result" (.list p.item true) true⟩]
  | .unconstrainedReference => [⟨.type_, .attr py!"type" (.enum (.model .referenceType)) true⟩,
      ⟨.referredSemanticId, .attr py!"referredSemanticId" (.cls .unconstrainedReference) false⟩,
      ⟨.keys, .attr py!"keys" (.list (.cls (.model .key)) true) true⟩]
  | .serviceDescription => [⟨.profiles, .attr py!"profiles" (.list .str true) true⟩]

/-- the names of the fields in paths of messages -/
def RFld.pyName : RFld → Str
  | .model f => f.pyName
  | .code => py!"code"
  | .correlationId => py!"correlation_id"
  | .messageType => py!"message_type"
  | .text => py!"text"
  | .timestamp => py!"timestamp"
  | .messages => py!"messages"
  | .cursor => py!"cursor"
  | .pagingMetadata => py!"paging_metadata"
  | .result => py!"result"
  | .type_ => py!"type"
  | .referredSemanticId => py!"referred_semantic_id"
  | .keys => py!"keys"
  | .profiles => py!"profiles"

/-- a method of a class of the meta-model -/
def liftPost (f : AVal → Except PyExc AVal) (v : RVal) : Except PyExc RVal :=
  match projVal v with
  | some a => (f a).map embVal
  | none => .error .attributeError

/-- a check of a class of the meta-model -/
def liftCheck (f : AVal → Chk Unit) (v : RVal) : Chk Unit :=
  match projVal v with
  | some a => f a
  | none => pyErr .attributeError

/-- the reflected classes -/
def respSchema (lim : Option Nat) : Schema RCls REnum SfvCls RFld where
  fields := respFields
  abstract
    | .model c => isAbstract c
    | _ => false
  subclasses
    | .model c => (subclassesOf c).map .model
    | _ => []
  className
    | .model c => c.pyName
    | .message => py!"Message"
    | .errorResult => py!"ErrorResult"
    | .pagingMetadata => py!"PagingMetadata"
    | .page p => p.pyName
    | .unconstrainedReference => py!"UnconstrainedReference"
    | .serviceDescription => py!"ServiceDescription"
  needsModelType
    | .model c => needsModelTypeOf c
    | _ => false
  enumValues
    | .model e => enumValuesOf e
    | .messageType => [py!"Undefined", py!"Info", py!"Warning", py!"Error", py!"Exception"]
  construct := construct lim
  postParse
    | .model c => ((schema lim).postParse c).map liftPost
    | _ => none

/-- the checks of the classes; the dataclasses of the interfaces have none -/
def respChecks (lim : Option Nat) : RCls → List (RVal → Chk Unit)
  | .model c => (checks lim c).map liftCheck
  | _ => []

/-- parse.py 222-226 `parse_and_check_json` for a response; the size of the document bounds the recursion -/
def parseResponse (lim : Option Nat) (ty : RTy) (j : Json) : Except PyExc (Res Note × RVal) :=
  parseAndCheck jsonOps (respSchema lim) RFld.pyName (respChecks lim) (j.size + 1) ty ⟨j, []⟩

end Verif.Api
