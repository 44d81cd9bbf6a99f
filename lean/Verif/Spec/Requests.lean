import Verif.Py

/-!
# How many requests a check of a server may send

Counted from the operations: one request for the lookup of the shell or submodel that an operation is below of, one for the entry that a
setup needs, one for each invalid value and one for each test; tests by path send one for each of the 14 types of elements.
-/

namespace Verif.Spec.Requests
open Verif

/-- the requests for a part of the check -/
structure Count where
  /-- to find what the operation is below of -/
  lookup : Nat := 0
  /-- to find an entry to ask for -/
  setup : Nat := 0
  /-- with invalid values -/
  negative : Nat := 0
  /-- of the tests -/
  positive : Nat := 1

def Count.sum (c : Count) : Nat := c.lookup + c.setup + c.negative + c.positive

/-- an operation with a single request -/
def single (name : Str) : Str × Count := (name, { positive := 1 })

/-- the operations on elements of a submodel; `n` requests find the submodel -/
def elements (n : Nat) : List (Str × Count) :=
  [(py!"GetAllSubmodelElements", { lookup := n, setup := 1, negative := 3, positive := 11 }),
   (py!"GetAllSubmodelElements-Metadata", { lookup := n, setup := 1, negative := 1, positive := 3 }),
   (py!"GetAllSubmodelElements-ValueOnly", { lookup := n, setup := 1, negative := 2, positive := 5 }),
   (py!"GetAllSubmodelElements-Reference", { lookup := n, negative := 1, positive := 2 }),
   (py!"GetAllSubmodelElements-Path", { lookup := n, setup := 1, negative := 2, positive := 5 }),
   (py!"GetSubmodelElementByPath", { lookup := n, setup := 1, negative := 2, positive := 9 * 14 }),
   (py!"GetSubmodelElementByPath-Metadata", { lookup := n, setup := 1, positive := 14 }),
   (py!"GetSubmodelElementByPath-ValueOnly", { lookup := n, setup := 1, negative := 2, positive := 9 * 14 }),
   (py!"GetSubmodelElementByPath-Reference", { lookup := n, setup := 1, positive := 14 }),
   (py!"GetSubmodelElementByPath-Path", { lookup := n, setup := 1, negative := 1, positive := 14 }),
   (py!"GetFileByPath", { lookup := n, setup := 1 })]

/-- the operations on a submodel with an id; `n` requests find the shell -/
def byId (n : Nat) : List (Str × Count) :=
  [(py!"GetSubmodelById", { lookup := n, setup := 1, negative := 3 }),
   (py!"GetSubmodelById-Metadata", { lookup := n, setup := 1, negative := 1 }),
   (py!"GetSubmodelById-Reference", { lookup := n, setup := 1, negative := 1 }),
   (py!"GetSubmodelById-ValueOnly", { lookup := n, setup := 1, negative := 3 }),
   (py!"GetSubmodelById-Path", { lookup := n, setup := 1, negative := 2 })]

/-- operations of all services -/
def general : List (Str × Count) :=
  [(py!"GenerateSerializationByIds", { setup := 1, negative := 3, positive := 4 }), single py!"GetDescription"]

/-- lists with pages -/
def paged (name : Str) : Str × Count := (name, { setup := 1, negative := 1, positive := 3 })

/-- the operations of the services with the largest number of their requests -/
def services : List (Str × List (Str × Count)) :=
  [(py!"https://admin-shell.io/aas/API/3/0/AssetAdministrationShellRepositoryServiceSpecification/SSP-002",
     [(py!"GetAllAssetAdministrationShells", { setup := 1, negative := 2, positive := 6 }),
      (py!"GetAllAssetAdministrationShells-Reference", { setup := 1, negative := 2, positive := 6 }),
      (py!"GetAssetAdministrationShellById", { setup := 1, negative := 1 }),
      (py!"GetAssetAdministrationShellById-Reference", { setup := 1, negative := 1 }),
      (py!"GetAssetInformation", { lookup := 1 }), (py!"GetThumbnail", { lookup := 1 }),
      (py!"GetAllSubmodelReferences", { lookup := 1, setup := 1, negative := 1, positive := 3 })] ++
     byId 1 ++ elements 1 ++ general),
   (py!"https://admin-shell.io/aas/API/3/0/SubmodelRepositoryServiceSpecification/SSP-002",
     [paged py!"GetAllSubmodels", paged py!"GetAllSubmodels-Metadata", paged py!"GetAllSubmodels-ValueOnly", paged py!"GetAllSubmodels-Reference",
      paged py!"GetAllSubmodels-Path"] ++
     byId 0 ++ elements 1 ++ general),
   (py!"https://admin-shell.io/aas/API/3/0/AssetAdministrationShellServiceSpecification/SSP-002",
     [single py!"GetAssetAdministrationShell", single py!"GetAssetAdministrationShell-Reference", single py!"GetAssetInformation", single py!"GetThumbnail",
      paged py!"GetAllSubmodelReferences"] ++
     byId 0 ++ elements 1 ++ general),
   (py!"https://admin-shell.io/aas/API/3/0/SubmodelServiceSpecification/SSP-002",
     [single py!"GetSubmodel", single py!"GetSubmodel-Metadata", single py!"GetSubmodel-ValueOnly", single py!"GetSubmodel-Reference",
      single py!"GetSubmodel-Path"] ++
     elements 0 ++ general)]

/-- the operations of a service; none if there is no such service -/
def operations (service : Str) : List (Str × Count) :=
  match services.find? fun s => s.1 == service with
  | some s => s.2
  | none => []

/-- the largest number of requests for a service, with the one that looks whether there is a server at all -/
def most (service : Str) : Nat := 1 + ((operations service).map fun o => o.2.sum).sum

end Verif.Spec.Requests
