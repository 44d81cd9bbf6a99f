import Verif.Spec.Api
import Verif.Spec.Parse
import Verif.Spec.Routes
import Verif.Suites

/-!
# What the test suites may send and how they may end
-/

namespace Verif.Spec.Suites
open Verif Verif.Parse Verif.Spec Verif.Spec.Parse Verif.Spec.Api Verif.Spec.Routes Verif.Api Verif.Http Verif.Generate

/-- A request that only reads: `GET` without a body, to a path of the server that is tested, with no other headers than the content type. -/
structure ReadOnly (client : Client) (s : Sent) : Prop where
  method : s.method = py!"get"
  data : s.data = none
  verify : s.verify = client.verify
  url : ∃ rest, s.url = hostOf client.host ++ rest ∧ (rest = [] ∨ rest.head? = some (pc! '/'))
  headers : s.headers = [] ∨ s.headers = [(py!"content-type", py!"application/json")]

/-- an exception that the engine does not cause itself: of the transport, or of the JSON decoder (other than `JSONDecodeError`) -/
inductive Outside (env : List Sent → Sent → Answer) : Exc → Prop
  | failed {h q text} : env h q = .failed text → Outside env ⟨.generic, text⟩
  | broken {h q e} : env h q = .broken e → Outside env e
  | decoder {h q r e} : env h q = .response r → r.json = .error (.other e) → Outside env e

/-- an exception that is raised when a constraint is checked on the content of a response of the server -/
def ByCheck (env : List Sent → Sent → Answer) (lim : Option Nat) (e : Exc) : Prop :=
  ∃ h q r j ty x, env h q = .response r ∧ r.json = .ok j ∧ parseResponse lim ty j = .error x ∧ e = excOf x

/-- the documents that `response.json()` returns: no key twice -/
def Sound (env : List Sent → Sent → Answer) : Prop := ∀ h q r j, env h q = .response r → r.json = .ok j → WF j

/-- exceptions that are not due to the engine: they come from outside, or from a check; `generate_calls` reports a `TypeError` as
`NotImplementedError` -/
inductive Caused (env : List Sent → Sent → Answer) (lim : Option Nat) : Exc → Prop
  | outside {e} : Outside env e → Caused env lim e
  | check {e} : ByCheck env lim e → Caused env lim e
  | renamed {e text} : Outside env e ∨ ByCheck env lim e → e.kind = .typeError → Caused env lim ⟨.notImplementedError, text⟩

/-! ## requests -/

/-- the requests that a program sends when it is started after these -/
def sentBy {α : Type} (env : List Sent → Sent → Answer) (p : ApiM α) (h : List Sent) : List Sent := (meaning env p true h).hist.drop h.length

/-- The request goes to the server and to a path of this form, with exactly these query parameters, which are named and in this order. The
prefix that the user wants to be removed is removed from the path. -/
def At (client : Client) (template : List Seg) (params : List (Str × Str)) (s : Sent) : Prop :=
  ∃ path query, Fills template path ∧ s.url = hostOf client.host ++ removePrefix client.removePathPrefix (path ++ query) ∧
    ((params = [] ∧ query = []) ∨ ∃ t, query = py!"?" ++ t ∧ parseQuery t = params.map some)

/-- this text takes the place of the argument in the path -/
def replaced (t : Str) : List Seg → List Seg
  | [] => []
  | .value :: rest => .text t :: replaced t rest
  | s :: rest => s :: replaced t rest

/-! ## negative tests -/

/-- where a parameter of an operation is sent -/
inductive Place
  | path
  | query (name : Str)
  deriving DecidableEq, Repr

/-- an invalid value for a parameter: the name of the parameter in the engine, its place, and the value -/
structure Bad where
  name : Str
  place : Place
  text : Str
  deriving DecidableEq, Repr

def badLimit : Bad := ⟨py!"limit", .query py!"limit", py!"-1"⟩
def badLevel : Bad := ⟨py!"level", .query py!"level", py!"#####"⟩
def badExtent : Bad := ⟨py!"extent", .query py!"extent", py!"#################"⟩
def badAas : Bad := ⟨py!"aas_id", .path, py!"invalid-base64url====="⟩
def badSubmodel : Bad := ⟨py!"submodel_id", .path, py!"invalid-base64url====="⟩
def badAsset : Bad := ⟨py!"asset_id", .query py!"assetIds", py!"invalid-base64url====="⟩

/-- the invalid values for the parameters of each operation; there are none for texts (`cursor`, `idShort`, `idShortPath`) -/
def negatives : List (Str × List Bad) :=
  [(py!"GetAllAssetAdministrationShells", [badLimit, badAsset]),
   (py!"GetAllAssetAdministrationShells-Reference", [badLimit, badAsset]),
   (py!"GetAssetAdministrationShellById", [badAas]),
   (py!"GetAssetAdministrationShellById-Reference", [badAas]),
   (py!"GetAssetAdministrationShell", []),
   (py!"GetAssetAdministrationShell-Reference", []),
   (py!"GetAssetInformation", []),
   (py!"GetThumbnail", []),
   (py!"GetAllSubmodelReferences", [badLimit]),
   (py!"GetAllSubmodels", [badLimit]),
   (py!"GetAllSubmodels-Metadata", [badLimit]),
   (py!"GetAllSubmodels-ValueOnly", [badLimit]),
   (py!"GetAllSubmodels-Reference", [badLimit]),
   (py!"GetAllSubmodels-Path", [badLimit]),
   (py!"GetSubmodel", []),
   (py!"GetSubmodel-Metadata", []),
   (py!"GetSubmodel-ValueOnly", []),
   (py!"GetSubmodel-Reference", []),
   (py!"GetSubmodel-Path", []),
   (py!"GetSubmodelById", [badSubmodel, badLevel, badExtent]),
   (py!"GetSubmodelById-Metadata", [badSubmodel]),
   (py!"GetSubmodelById-Reference", [badSubmodel]),
   (py!"GetSubmodelById-ValueOnly", [badSubmodel, badLevel, badExtent]),
   (py!"GetSubmodelById-Path", [badSubmodel, badLevel]),
   (py!"GetAllSubmodelElements", [badLevel, ⟨py!"extent", .query py!"extent", py!"#####"⟩, badLimit]),
   (py!"GetAllSubmodelElements-Metadata", [badLimit]),
   (py!"GetAllSubmodelElements-ValueOnly", [badLevel, badLimit]),
   (py!"GetAllSubmodelElements-Reference", [badLimit]),
   (py!"GetAllSubmodelElements-Path", [badLevel, badLimit]),
   (py!"GetSubmodelElementByPath", [badLevel, badExtent]),
   (py!"GetSubmodelElementByPath-Metadata", []),
   (py!"GetSubmodelElementByPath-ValueOnly", [badLevel, badExtent]),
   (py!"GetSubmodelElementByPath-Reference", []),
   (py!"GetSubmodelElementByPath-Path", [badLevel]),
   (py!"GetFileByPath", []),
   (py!"GenerateSerializationByIds", [⟨py!"aas_id", .query py!"aasIds", py!"invalid-base64url====="⟩,
     ⟨py!"submodel_id", .query py!"submodelIds", py!"invalid-base64url====="⟩,
     ⟨py!"include_concept_descriptions", .query py!"includeConceptDescriptions", py!"invalid-bool"⟩]),
   (py!"GetDescription", [])]

def negativesOf (operation : Str) : List Bad := ((negatives.find? fun n => n.1 == operation).map (·.2)).getD []

/-- the request of an operation carries the invalid value, and no other query parameters -/
def Carries (client : Client) (template : List Seg) (b : Bad) (s : Sent) : Prop :=
  match b.place with
  | .path => At client (replaced b.text template) [] s
  | .query name => At client template [(name, b.text)] s

/-- a response that rejects the request: the status is that of a client error, and the content is an error result -/
def Rejection (lim : Option Nat) (r : Response) : Prop :=
  400 ≤ r.status ∧ r.status < 500 ∧ ∃ j, r.json = .ok j ∧ Conforms (respSchema lim) (.cls .errorResult) j

/-- the program ends with an exception -/
def Throws {α : Type} (env : List Sent → Sent → Answer) (p : ApiM α) (h : List Sent) : Prop := ∃ e, (meaning env p true h).out = .raised e

/-- A test sends exactly one request, which carries the invalid value, and passes iff the request is rejected. If it is, there is no exception. -/
def TestsRejection (env : List Sent → Sent → Answer) (lim : Option Nat) (client : Client) (template : List Seg) (b : Bad) (p : ApiM Unit) : Prop :=
  ∀ h, ∃ q, Carries client template b q ∧ sentBy env p h = [q] ∧
    (∀ title v res h', Ends env title p h v res h' → ∃ r, env h q = .response r ∧ (res.ok = true ↔ Rejection lim r)) ∧
    ∀ r, env h q = .response r → Rejection lim r → ¬ Throws env p h

/-- programs that test these values, one for each, in order -/
inductive Rows (env : List Sent → Sent → Answer) (cfg : Cfg) (client : Client) (template : List Seg) : List Bad → List (Str × ApiM Unit) → Prop
  | nil : Rows env cfg client template [] []
  | cons {b bs p ps} : TestsRejection env cfg.lim client template b p → Rows env cfg client template bs ps →
      Rows env cfg client template (b :: bs) ((py!"Set " ++ b.name ++ py!" = '" ++ b.text ++ py!"'", p) :: ps)

/-! ## the parameters of the operations -/

/-- the parameters of an operation: that in the path, and those in the query; by their names in the engine, and in the query -/
structure Parameters where
  path : Option Str := none
  query : List (Str × Str) := []

def pageParameters : List (Str × Str) := [(py!"limit", py!"limit"), (py!"cursor", py!"cursor")]
def shellParameters : List (Str × Str) := [(py!"cursor", py!"cursor"), (py!"limit", py!"limit"), (py!"id_short", py!"idShort"), (py!"asset_id", py!"assetIds")]
def levelParameter : Str × Str := (py!"level", py!"level")
def extentParameter : Str × Str := (py!"extent", py!"extent")

/-- the parameters of the operations that have any (AAS Part 2); in the query they have the order of the engine -/
def parameters : List (Str × Parameters) :=
  [(py!"GetAllAssetAdministrationShells", { query := shellParameters }),
   (py!"GetAllAssetAdministrationShells-Reference", { query := shellParameters }),
   (py!"GetAssetAdministrationShellById", { path := some py!"aas_id" }),
   (py!"GetAssetAdministrationShellById-Reference", { path := some py!"aas_id" }),
   (py!"GetAllSubmodelReferences", { query := pageParameters }),
   (py!"GetAllSubmodels", { query := pageParameters }),
   (py!"GetAllSubmodels-Metadata", { query := pageParameters }),
   (py!"GetAllSubmodels-ValueOnly", { query := pageParameters }),
   (py!"GetAllSubmodels-Reference", { query := pageParameters }),
   (py!"GetAllSubmodels-Path", { query := pageParameters }),
   (py!"GetSubmodelById", { path := some py!"submodel_id", query := [levelParameter, extentParameter] }),
   (py!"GetSubmodelById-Metadata", { path := some py!"submodel_id" }),
   (py!"GetSubmodelById-Reference", { path := some py!"submodel_id" }),
   (py!"GetSubmodelById-ValueOnly", { path := some py!"submodel_id", query := [levelParameter, extentParameter] }),
   (py!"GetSubmodelById-Path", { path := some py!"submodel_id", query := [levelParameter] }),
   (py!"GetAllSubmodelElements", { query := [levelParameter, extentParameter] ++ pageParameters }),
   (py!"GetAllSubmodelElements-Metadata", { query := pageParameters }),
   (py!"GetAllSubmodelElements-ValueOnly", { query := [levelParameter] ++ pageParameters }),
   (py!"GetAllSubmodelElements-Reference", { query := pageParameters }),
   (py!"GetAllSubmodelElements-Path", { query := [levelParameter] ++ pageParameters }),
   (py!"GetSubmodelElementByPath", { path := some py!"id_short_path", query := [levelParameter, extentParameter] }),
   (py!"GetSubmodelElementByPath-Metadata", { path := some py!"id_short_path" }),
   (py!"GetSubmodelElementByPath-ValueOnly", { path := some py!"id_short_path", query := [levelParameter, extentParameter] }),
   (py!"GetSubmodelElementByPath-Reference", { path := some py!"id_short_path" }),
   (py!"GetSubmodelElementByPath-Path", { path := some py!"id_short_path", query := [levelParameter] }),
   (py!"GetFileByPath", { path := some py!"id_short_path" }),
   (py!"GenerateSerializationByIds", { query := [(py!"aas_id", py!"aasIds"), (py!"submodel_id", py!"submodelIds"),
     (py!"include_concept_descriptions", py!"includeConceptDescriptions")] })]

def parametersOf (operation : Str) : Parameters := ((parameters.find? fun n => n.1 == operation).map (·.2)).getD {}

/-- the type is an enumeration -/
def isEnum {C E S : Type} : Ty C E S → Bool
  | .enum _ => true
  | _ => false

/-- the value given for a parameter -/
def given (kw : Kwargs) (name : Str) : ArgVal := ((kw.find? fun a => a.1 == name).map (·.2)).getD .none

/-- the text that is sent for a value: for a member of an enumeration its value, otherwise `str`; nothing for `None` -/
def carried : ArgVal → Option Str
  | .none => none
  | .member _ value => some value
  | v => v.pyStr.toOption

/-- a text that can be sent -/
def Writable (t : Str) : Prop := ∀ c ∈ t, c < 0x110000 ∧ ¬ (0xd800 ≤ c ∧ c ≤ 0xdfff)

/-- A value for the parameter: `None` only if it is optional; a member of an enumeration (or an invalid value in its place) iff the type of
the parameter is one; the text that is sent for it can be encoded. -/
def Suitable (p : Arg) (v : ArgVal) : Prop :=
  match v with
  | .none => p.required = false
  | .member text value => isEnum p.ty = true ∧ Writable text ∧ Writable value
  | .dummy value => isEnum p.ty = true ∧ Writable value
  | v => isEnum p.ty = false ∧ ∃ t, v.pyStr = .ok t ∧ Writable t

/-- The request of an operation with these arguments: the one for the path takes its place there; the query has those of its parameters that
are given, under their names, with their texts. -/
def WithArguments (client : Client) (template : List Seg) (ps : Parameters) (kw : Kwargs) (s : Sent) : Prop :=
  let query := ps.query.filterMap fun x => (carried (given kw x.1)).map fun t => (x.2, t)
  match ps.path with
  | none => At client template query s
  | some n => ∃ t, carried (given kw n) = some t ∧ At client (replaced t template) query s

/-! ## the table -/

/-- an operation of a service, and its entry in the table of the engine -/
def Entry (cfg : Cfg) (service : Str) (e : Str × List Seg) (op : Op) : Prop :=
  ∃ s ∈ services.zip (Suites.availableSuites cfg), s.1.1 = service ∧ (e, op) ∈ s.1.2.zip s.2.2

/-- the setup of the operation succeeds after these requests, and returns the client and the attributes for the tests -/
def SetUp (env : List Sent → Sent → Answer) (client : Client) (op : Op) (h : List Sent) (x : Client × op.suite.σ) : Prop :=
  (meaning env (setupOp client op) true h).out = .val x

/-- the request goes to the server and to a path of this form, with or without a query -/
def To (client : Client) (template : List Seg) (s : Sent) : Prop :=
  ∃ path query, Fills template path ∧ (query = [] ∨ query.head? = some (pc! '?')) ∧
    s.url = hostOf client.host ++ removePrefix client.removePathPrefix (path ++ query)

/-- these operations are sent to a path with an additional slash -/
def slashed : List Str := [py!"GetAssetAdministrationShell", py!"GetSubmodel"]

/-- the path that an operation is sent to -/
def sentTo (e : Str × List Seg) : List Seg := if e.1 ∈ slashed then e.2 ++ [.text py!"/"] else e.2

/-- the exceptions that the engine raises itself -/
def ownKinds (service : Str) : List PyExc :=
  if service = (services.map (·.1)).headD [] then [.indexError, .attributeError, .typeError, .stopIteration] else [.indexError, .typeError, .stopIteration]

end Verif.Spec.Suites
