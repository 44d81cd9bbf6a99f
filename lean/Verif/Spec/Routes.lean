import Verif.Spec.Http

/-!
# The operations of the services and their paths

Taken from the service specifications (AAS Part 2); the order is that of the test engine.
-/

namespace Verif.Spec.Routes
open Verif Verif.Spec

/-- a part of the path of an operation -/
inductive Seg
  /-- fixed text -/
  | text (s : Str)
  /-- an identifier, in base64url -/
  | id
  /-- an argument of the operation -/
  | value
  deriving DecidableEq, Repr

/-- this text is the base64url form of a non-empty text -/
def EncodedId (v : Str) : Prop := ∃ i bs, i ≠ [] ∧ (∀ b ∈ bs, b < 256) ∧ Base64Of v bs ∧ utf8Decode bs = some i

/-- this path is an instance of the template -/
def Fills : List Seg → Str → Prop
  | [], s => s = []
  | .text t :: rest, s => ∃ r, s = t ++ r ∧ Fills rest r
  | .id :: rest, s => ∃ v r, s = v ++ r ∧ EncodedId v ∧ Fills rest r
  | .value :: rest, s => ∃ v r, s = v ++ r ∧ Fills rest r

/-- the operations on the elements of the submodel with this path -/
def elementPaths (base : List Seg) : List (Str × List Seg) :=
  [(py!"GetAllSubmodelElements", base ++ [.text py!"/submodel-elements"]),
   (py!"GetAllSubmodelElements-Metadata", base ++ [.text py!"/submodel-elements/$metadata"]),
   (py!"GetAllSubmodelElements-ValueOnly", base ++ [.text py!"/submodel-elements/$value"]),
   (py!"GetAllSubmodelElements-Reference", base ++ [.text py!"/submodel-elements/$reference"]),
   (py!"GetAllSubmodelElements-Path", base ++ [.text py!"/submodel-elements/$path"]),
   (py!"GetSubmodelElementByPath", base ++ [.text py!"/submodel-elements/", .value]),
   (py!"GetSubmodelElementByPath-Metadata", base ++ [.text py!"/submodel-elements/", .value, .text py!"/$metadata"]),
   (py!"GetSubmodelElementByPath-ValueOnly", base ++ [.text py!"/submodel-elements/", .value, .text py!"/$value"]),
   (py!"GetSubmodelElementByPath-Reference", base ++ [.text py!"/submodel-elements/", .value, .text py!"/$reference"]),
   (py!"GetSubmodelElementByPath-Path", base ++ [.text py!"/submodel-elements/", .value, .text py!"/$path"]),
   (py!"GetFileByPath", base ++ [.text py!"/submodel-elements/", .value, .text py!"/attachment"])]

/-- the operations that get a submodel by its id -/
def submodelPaths (base : List Seg) : List (Str × List Seg) :=
  [(py!"GetSubmodelById", base ++ [.text py!"/submodels/", .value]),
   (py!"GetSubmodelById-Metadata", base ++ [.text py!"/submodels/", .value, .text py!"/$metadata"]),
   (py!"GetSubmodelById-Reference", base ++ [.text py!"/submodels/", .value, .text py!"/$reference"]),
   (py!"GetSubmodelById-ValueOnly", base ++ [.text py!"/submodels/", .value, .text py!"/$value"]),
   (py!"GetSubmodelById-Path", base ++ [.text py!"/submodels/", .value, .text py!"/$path"])]

/-- the operations on a shell with this path -/
def shellPaths (base : List Seg) : List (Str × List Seg) :=
  [(py!"GetAssetInformation", base ++ [.text py!"/asset-information"]),
   (py!"GetThumbnail", base ++ [.text py!"/asset-information/thumbnail"]),
   (py!"GetAllSubmodelReferences", base ++ [.text py!"/submodel-refs"])] ++
  submodelPaths base

/-- the services: the identifiers of their profiles, and their operations -/
def services : List (Str × List (Str × List Seg)) :=
  [(py!"https://admin-shell.io/aas/API/3/0/AssetAdministrationShellRepositoryServiceSpecification/SSP-002",
    [(py!"GetAllAssetAdministrationShells", [.text py!"/shells"]),
     (py!"GetAllAssetAdministrationShells-Reference", [.text py!"/shells/$reference"]),
     (py!"GetAssetAdministrationShellById", [.text py!"/shells/", .value]),
     (py!"GetAssetAdministrationShellById-Reference", [.text py!"/shells/", .value, .text py!"/$reference"])] ++
    shellPaths [.text py!"/shells/", .id] ++
    elementPaths [.text py!"/shells/", .id, .text py!"/submodels/", .id] ++
    [(py!"GenerateSerializationByIds", [.text py!"/serialization"]), (py!"GetDescription", [.text py!"/description"])]),
   (py!"https://admin-shell.io/aas/API/3/0/SubmodelRepositoryServiceSpecification/SSP-002",
    [(py!"GetAllSubmodels", [.text py!"/submodels"]),
     (py!"GetAllSubmodels-Metadata", [.text py!"/submodels/$metadata"]),
     (py!"GetAllSubmodels-ValueOnly", [.text py!"/submodels/$value"]),
     (py!"GetAllSubmodels-Reference", [.text py!"/submodels/$reference"]),
     (py!"GetAllSubmodels-Path", [.text py!"/submodels/$path"])] ++
    submodelPaths [] ++
    elementPaths [.text py!"/submodels/", .id] ++
    [(py!"GenerateSerializationByIds", [.text py!"/serialization"]), (py!"GetDescription", [.text py!"/description"])]),
   (py!"https://admin-shell.io/aas/API/3/0/AssetAdministrationShellServiceSpecification/SSP-002",
    [(py!"GetAssetAdministrationShell", [.text py!"/aas"]),
     (py!"GetAssetAdministrationShell-Reference", [.text py!"/aas/$reference"])] ++
    shellPaths [.text py!"/aas"] ++
    elementPaths [.text py!"/aas/submodels/", .id] ++
    [(py!"GenerateSerializationByIds", [.text py!"/aas/serialization"]), (py!"GetDescription", [.text py!"/description"])]),
   (py!"https://admin-shell.io/aas/API/3/0/SubmodelServiceSpecification/SSP-002",
    [(py!"GetSubmodel", [.text py!"/submodel"]),
     (py!"GetSubmodel-Metadata", [.text py!"/submodel/$metadata"]),
     (py!"GetSubmodel-ValueOnly", [.text py!"/submodel/$value"]),
     (py!"GetSubmodel-Reference", [.text py!"/submodel/$reference"]),
     (py!"GetSubmodel-Path", [.text py!"/submodel/$path"])] ++
    elementPaths [.text py!"/submodel"] ++
    [(py!"GenerateSerializationByIds", [.text py!"/submodel/serialization"]), (py!"GetDescription", [.text py!"/description"])])]

end Verif.Spec.Routes
