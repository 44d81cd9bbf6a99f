import Verif.Api
import Verif.Strings

/-!
# Model of the test suites in `aas_test_engines/test_cases/v3_0/interfaces/*.py` and of their table in `test_cases/v3_0/api.py`

The request of an operation is described by a `Route`; `invoke_success` and `invoke_error` of every suite build the same request, and
differ in how they treat the response. Line numbers of tests are those of the files (`co_firstlineno`).
-/

namespace Verif.Api.Suites
open Verif Verif.Parse Verif.Aas Verif.Http Verif.Generate Verif.Api

/-! ## calls -/

/-- a part of the path of a request: text, or an argument in an f-string -/
inductive Piece
  | lit (s : Str)
  | arg (name : Str)
  deriving DecidableEq, Repr

/-- the value of a query parameter: an argument, or an argument given to `unpack_enum` -/
inductive Param
  | plain (name : Str)
  | unpacked (name : Str)
  deriving DecidableEq, Repr

/-- `Request(path=f"...", query_parameters={...})` -/
structure Route where
  path : List Piece
  query : List (Str × Param) := []
  deriving DecidableEq, Repr

/-- the f-string of the path -/
def pathOf (args : Str → ArgVal) : List Piece → Except PyExc Str
  | [] => .ok []
  | .lit s :: rest => do
    let r ← pathOf args rest
    return s ++ r
  | .arg n :: rest => do
    let s ← (args n).pyStr
    let r ← pathOf args rest
    return s ++ r

/-- a query parameter; `str(v)` is applied by `urlencode`, `None` is left out -/
def paramOf (args : Str → ArgVal) : Param → Except PyExc (Option Str)
  | .plain n =>
    match args n with
    | .none => .ok none
    | v => v.pyStr.map some
  | .unpacked n => unpackEnum (args n)

/-- the dictionary of query parameters -/
def queryOf (args : Str → ArgVal) : List (Str × Param) → Except PyExc (List (Str × Option Str))
  | [] => .ok []
  | (k, p) :: rest => do
    let v ← paramOf args p
    let r ← queryOf args rest
    return (k, v) :: r

/-- the request for these arguments -/
def Route.request (r : Route) (args : Str → ArgVal) : Except PyExc Request := do
  let path ← pathOf args r.path
  let query ← queryOf args r.query
  return { path := path, query := query }

/-- what `invoke_success` does with the response -/
inductive Mode
  /-- `invoke_and_decode(..., {200})` -/
  | decode (ty : RTy)
  /-- `extract_json(invoke(...))`: the status is not checked -/
  | json
  /-- `invoke(...).content`: neither status nor content are checked -/
  | raw
  deriving DecidableEq

/-- `invoke_success` and `invoke_error` of a suite: their parameters, their request; `invoke_error` decodes an `ErrorResult` with a status
in `range(400, 500)`, or raises `NotImplementedError("Cannot fail")` (`canFail = false`) -/
structure Call where
  params : List Arg
  route : Route
  mode : Mode
  canFail : Bool := true

/-- Python's binding of keyword arguments; all parameters that are not required have the default `None` -/
def bindArgs (params : List Arg) (kw : Kwargs) : Except PyExc (Str → ArgVal) :=
  if kw.all (fun a => params.any fun p => p.name == a.1) && params.all (fun p => !p.required || kw.any fun a => a.1 == p.name) then
    .ok fun n => (kw.find? fun a => a.1 == n).elim .none (·.2)
  else .error .typeError

/-- an expression that may raise -/
def lift {α : Type} : Except PyExc α → ApiM α
  | .ok a => .pure a
  | .error e => .raise (excOf e)

/-- the request of a call with keyword arguments -/
def Call.request (c : Call) (kw : Kwargs) : Except PyExc Request := do
  let args ← bindArgs c.params kw
  c.route.request args

/-- `invoke_success`. The values for `json` and `raw` are not used by any test. -/
def Call.success (cfg : Cfg) (c : Call) (client : Client) (kw : Kwargs) : ApiM RVal :=
  (lift (c.request kw)).bind fun request =>
  match c.mode with
  | .decode ty => invokeAndDecode cfg client request ty Api.success
  | .json => (invoke client request).bind fun response => (extractJson response).bind fun _ => .pure .foreign
  | .raw => (invoke client request).bind fun _ => .pure .foreign

/-- `invoke_error` -/
def Call.error (cfg : Cfg) (c : Call) (client : Client) (kw : Kwargs) : ApiM Unit :=
  if c.canFail then
    (lift (c.request kw)).bind fun request =>
    (invokeAndDecode cfg client request (.cls .errorResult) clientError).bind fun _ => .pure ()
  else
    (lift (bindArgs c.params kw)).bind fun _ => .raise (excOf .notImplementedError)

/-! ## values of responses -/

/-- the attributes of an object -/
def rlookup (f : RFld) : List (RFld × RVal) → Option RVal
  | [] => none
  | (g, v) :: rest => if g = f then some v else rlookup f rest

/-- `getattr` -/
def rattr (v : RVal) (f : RFld) : Except PyExc RVal :=
  match v with
  | .obj _ attrs =>
    match rlookup f attrs with
    | some w => .ok w
    | none => .error .attributeError
  | _ => .error .attributeError

/-- `v.raw_value` -/
def rraw : RVal → Except PyExc Str
  | .sfv _ s => .ok s
  | _ => .error .attributeError

/-- `v[0]` -/
def rfirst : RVal → Except PyExc RVal
  | .list (x :: _) => .ok x
  | .list [] => .error .indexError
  | _ => .error .typeError

/-- `len(v)` -/
def rlen : RVal → Except PyExc Nat
  | .list l => .ok l.length
  | _ => .error .typeError

/-- `v is None` -/
def risNone : RVal → Bool
  | .none => true
  | _ => false

/-- `s in v` for a list of `str` -/
def rcontains (s : Str) : RVal → Except PyExc Bool
  | .list l => .ok (l.any fun | .str t => t == s | _ => false)
  | _ => .error .typeError

/-- shared.py 36-37 `Base64String(raw)` -/
def base64String (raw : Str) : Except PyExc ArgVal :=
  if Re.fullmatch xmlRe raw then .ok (.sfv true raw) else .error .valueError

/-- `page.result[0]` -/
def firstResult (page : RVal) : Except PyExc RVal := do
  let r ← rattr page .result
  rfirst r

/-- `page.paging_metadata.cursor` -/
def pageCursor (page : RVal) : Except PyExc RVal := do
  let m ← rattr page .pagingMetadata
  rattr m .cursor

/-- `v.keys[0].value.raw_value` of a `Reference` -/
def firstKey (v : RVal) : Except PyExc Str := do
  let keys ← rattr v (.model .keys)
  let k ← rfirst keys
  let value ← rattr k (.model .value)
  rraw value

/-- `v.id.raw_value` -/
def idOf (v : RVal) : Except PyExc Str := do
  let i ← rattr v (.model .id)
  rraw i

/-- `shell.submodels[0].keys[0].value.raw_value` -/
def firstSubmodel (shell : RVal) : Except PyExc Str := do
  let l ← rattr shell (.model .submodels)
  let r ← rfirst l
  firstKey r

/-! ## parameters -/

/-- parameters `Optional[...] = None` -/
def optInt (n : Str) : Arg := ⟨n, .number, false⟩
def optStr (n : Str) : Arg := ⟨n, .str, false⟩
def limitArg : Arg := optInt py!"limit"
def cursorArg : Arg := optStr py!"cursor"
/-- `level: Optional[Level] = None` -/
def levelArg : Arg := ⟨py!"level", .enum .level, false⟩
/-- `extent: Optional[Extent] = None` -/
def extentArg : Arg := ⟨py!"extent", .enum .extent, false⟩

def limitParam : Str × Param := (py!"limit", .plain py!"limit")
def cursorParam : Str × Param := (py!"cursor", .plain py!"cursor")
def levelParam : Str × Param := (py!"level", .unpacked py!"level")
def extentParam : Str × Param := (py!"extent", .unpacked py!"extent")

/-- `Level.Core` etc. (shared.py 185-192) -/
def core : ArgVal := .member py!"Level.Core" py!"core"
def deep : ArgVal := .member py!"Level.Deep" py!"deep"
def withBlob : ArgVal := .member py!"Extent.WithBlobValue" py!"withBlobValue"
def withoutBlob : ArgVal := .member py!"Extent.WithoutBlobValue" py!"withoutBlobValue"

def modelTy (c : Cls) : RTy := .cls (.model c)
def pageTy (p : Page) : RTy := .cls (.page p)

/-! ## calls of the operations -/

/-- aas.py 37-39 `get_shell` -/
def getShell : Call := { params := [], route := { path := [.lit py!"/"] }, mode := .decode (modelTy .assetAdministrationShell), canFail := false }
/-- aas.py 74-76 -/
def getShellReference : Call := { params := [], route := { path := [.lit py!"/$reference"] }, mode := .decode (modelTy .reference), canFail := false }
/-- aas.py 42-52, 95-108 `get_all_submodel_references` -/
def getAllSubmodelReferences : Call :=
  { params := [limitArg, cursorArg], route := { path := [.lit py!"/submodel-refs"], query := [limitParam, cursorParam] }, mode := .decode (pageTy .submodelRefs) }
/-- aas.py 120-122 -/
def getAssetInformation : Call :=
  { params := [], route := { path := [.lit py!"/asset-information"] }, mode := .decode (modelTy .assetInformation), canFail := false }
/-- aas.py 137-139 -/
def getThumbnail : Call := { params := [], route := { path := [.lit py!"/asset-information/thumbnail"] }, mode := .raw, canFail := false }

/-- the parameters of aas_repo.py 94-100, 103-109, 148-154, 164-170 -/
def shellParams : List Arg := [limitArg, cursorArg, optStr py!"id_short", ⟨py!"asset_id", .cls .assetId, false⟩]
/-- aas_repo.py 44-49, 111-116, 139-144 -/
def shellQuery : List (Str × Param) := [cursorParam, limitParam, (py!"idShort", .plain py!"id_short"), (py!"assetIds", .plain py!"asset_id")]
/-- aas_repo.py 35-51, 94-119 `get_all_shells` -/
def getAllShells : Call := { params := shellParams, route := { path := [.lit py!"/shells"], query := shellQuery }, mode := .decode (pageTy .shells) }
/-- aas_repo.py 136-171 -/
def getAllShellsReference : Call :=
  { params := shellParams, route := { path := [.lit py!"/shells/$reference"], query := shellQuery }, mode := .decode (pageTy .shellRefs) }
def aasIdArg : Arg := ⟨py!"aas_id", .sfv .base64String, true⟩
/-- aas_repo.py 188-194 -/
def getShellById : Call :=
  { params := [aasIdArg], route := { path := [.lit py!"/shells/", .arg py!"aas_id"] }, mode := .decode (modelTy .assetAdministrationShell) }
/-- aas_repo.py 211-217 -/
def getShellByIdReference : Call :=
  { params := [aasIdArg], route := { path := [.lit py!"/shells/", .arg py!"aas_id", .lit py!"/$reference"] }, mode := .decode (modelTy .reference) }

/-- description.py 26-28 -/
def getDescription : Call := { params := [], route := { path := [.lit py!"/description"] }, mode := .decode (.cls .serviceDescription), canFail := false }

/-- serialization.py 23-54 -/
def generateSerialization : Call where
  params := [⟨py!"aas_id", .sfv .base64String, false⟩, ⟨py!"submodel_id", .sfv .base64String, false⟩,
    ⟨py!"include_concept_descriptions", .bool, false⟩]
  route := { path := [.lit py!"/serialization"], query := [(py!"aasIds", .plain py!"aas_id"), (py!"submodelIds", .plain py!"submodel_id"),
    (py!"includeConceptDescriptions", .plain py!"include_concept_descriptions")] }
  mode := .decode (modelTy .environment)

/-- submodel.py 122-124 -/
def getSubmodel : Call := { params := [], route := { path := [.lit py!"/"] }, mode := .decode (modelTy .submodel), canFail := false }
/-- submodel.py 139-141 -/
def getSubmodelMeta : Call := { params := [], route := { path := [.lit py!"/$metadata"] }, mode := .decode (modelTy .submodel), canFail := false }
/-- submodel.py 156-159 -/
def getSubmodelValue : Call := { params := [], route := { path := [.lit py!"/$value"] }, mode := .json, canFail := false }
/-- submodel.py 174-176 -/
def getSubmodelReference : Call :=
  { params := [], route := { path := [.lit py!"/$reference"] }, mode := .decode (.cls .unconstrainedReference), canFail := false }
/-- submodel.py 191-193 -/
def getSubmodelPath : Call := { params := [], route := { path := [.lit py!"/$path"] }, mode := .decode (.list .str true), canFail := false }

/-- submodel.py 100-116, 232-257 `get_all_submodel_elements`; the annotation of `extent` is `Optional[Level]` -/
def getAllSubmodelElements : Call where
  params := [levelArg, ⟨py!"extent", .enum .level, false⟩, limitArg, cursorArg]
  route := { path := [.lit py!"/submodel-elements"], query := [levelParam, extentParam, limitParam, cursorParam] }
  mode := .decode (pageTy .elements)
/-- submodel.py 324-346 -/
def getAllSubmodelElementsMeta : Call where
  params := [limitArg, cursorArg]
  route := { path := [.lit py!"/submodel-elements/$metadata"], query := [limitParam, cursorParam] }
  mode := .decode (pageTy .elements)
/-- submodel.py 358-383 -/
def getAllSubmodelElementsValue : Call where
  params := [levelArg, limitArg, cursorArg]
  route := { path := [.lit py!"/submodel-elements/$value"], query := [levelParam, limitParam, cursorParam] }
  mode := .decode (pageTy .elementValues)
/-- submodel.py 389-411 -/
def getAllSubmodelElementsReference : Call where
  params := [limitArg, cursorArg]
  route := { path := [.lit py!"/submodel-elements/$reference"], query := [limitParam, cursorParam] }
  mode := .decode (pageTy .elementRefs)
/-- submodel.py 423-448 -/
def getAllSubmodelElementsPath : Call where
  params := [levelArg, limitArg, cursorArg]
  route := { path := [.lit py!"/submodel-elements/$path"], query := [levelParam, limitParam, cursorParam] }
  mode := .decode (pageTy .elementPaths)

def pathArg : Arg := ⟨py!"id_short_path", .str, true⟩
/-- `f"/submodel-elements/{id_short_path}" + suffix` -/
def elementPath (suffix : List Piece) : List Piece := [.lit py!"/submodel-elements/", .arg py!"id_short_path"] ++ suffix

/-- submodel.py 513-537 -/
def getElement : Call where
  params := [pathArg, levelArg, extentArg]
  route := { path := elementPath [], query := [levelParam, extentParam] }
  mode := .decode (modelTy .submodelElement)
/-- submodel.py 595-602 -/
def getElementMeta : Call := { params := [pathArg], route := { path := elementPath [.lit py!"/$metadata"] }, mode := .json }
/-- submodel.py 636-665 -/
def getElementValue : Call where
  params := [pathArg, levelArg, extentArg]
  route := { path := elementPath [.lit py!"/$value"], query := [levelParam, extentParam] }
  mode := .json
/-- submodel.py 722-728 -/
def getElementReference : Call :=
  { params := [pathArg], route := { path := elementPath [.lit py!"/$reference"] }, mode := .decode (.cls .unconstrainedReference) }
/-- submodel.py 759-772 -/
def getElementPath : Call where
  params := [pathArg, levelArg]
  route := { path := elementPath [.lit py!"/$path"], query := [levelParam] }
  mode := .decode (.list .str true)
/-- submodel.py 792-799 -/
def getFile : Call := { params := [pathArg], route := { path := elementPath [.lit py!"/attachment"] }, mode := .raw }

/-- submodel_repo.py 63-73, 83-94, 110-124, 140-154, 170-186, 202-216: `/submodels` and its variants -/
def allSubmodels (path : Str) (p : Page) : Call where
  params := [limitArg, cursorArg]
  route := { path := [.lit path], query := [limitParam, cursorParam] }
  mode := .decode (pageTy p)
/-- submodel_repo.py 63-73, 83-94 `get_all_submodels` -/
def getAllSubmodels : Call := allSubmodels py!"/submodels" .submodels
/-- submodel_repo.py 110-124 -/
def getAllSubmodelsMeta : Call := allSubmodels py!"/submodels/$metadata" .submodels
/-- submodel_repo.py 140-154 -/
def getAllSubmodelsValue : Call := allSubmodels py!"/submodels/$value" .submodelValues
/-- submodel_repo.py 170-186 -/
def getAllSubmodelsReference : Call := allSubmodels py!"/submodels/$reference" .submodelRefs
/-- submodel_repo.py 202-216 -/
def getAllSubmodelsPath : Call := allSubmodels py!"/submodels/$path" .submodelPaths

def submodelIdArg : Arg := ⟨py!"submodel_id", .sfv .base64String, true⟩
def submodelPath (suffix : List Piece) : List Piece := [.lit py!"/submodels/", .arg py!"submodel_id"] ++ suffix
/-- submodel_repo.py 250-268 -/
def getSubmodelById : Call where
  params := [submodelIdArg, levelArg, extentArg]
  route := { path := submodelPath [], query := [levelParam, extentParam] }
  mode := .decode (modelTy .submodel)
/-- submodel_repo.py 289-297 -/
def getSubmodelByIdMeta : Call :=
  { params := [submodelIdArg], route := { path := submodelPath [.lit py!"/$metadata"] }, mode := .decode (modelTy .submodel) }
/-- submodel_repo.py 318-341 -/
def getSubmodelByIdValue : Call where
  params := [submodelIdArg, levelArg, extentArg]
  route := { path := submodelPath [.lit py!"/$value"], query := [levelParam, extentParam] }
  mode := .json
/-- submodel_repo.py 362-370 -/
def getSubmodelByIdReference : Call :=
  { params := [submodelIdArg], route := { path := submodelPath [.lit py!"/$reference"] }, mode := .decode (modelTy .reference) }
/-- submodel_repo.py 391-399 -/
def getSubmodelByIdPath : Call where
  params := [submodelIdArg, levelArg]
  route := { path := submodelPath [.lit py!"/$path"], query := [levelParam] }
  mode := .decode (.list .str true)

/-! ## suites -/

section
variable (cfg : Cfg)

/-- `limit=1` -/
def limit1 : Kwargs := [(py!"limit", .int 1)]

/-- a docstring of one line -/
def doc (s : Str) : Option Str := some (py!"\n        " ++ (s ++ py!"\n        "))

/-- a test that only calls `invoke_success` with these arguments -/
def fetch {σ : Type} (call : Call) (name : Str) (line : Nat) (title : Str) (kw : Kwargs := []) : Test σ :=
  ⟨name, line, doc title, fun client _ _ => (call.success cfg client kw).bind fun _ => .pure ()⟩

/-- shared.py 163-168, 176-182: `limit=1, **self.valid_arguments`; no suite with these tests sets `valid_arguments` -/
def getOne (call : Call) (client : Client) (message : Str) : ApiM Unit :=
  (call.success cfg client limit1).bind fun page =>
  (lift (rattr page .result)).bind fun l =>
  (lift (rlen l)).bind fun n =>
  assert_ (n == 1) message

/-- shared.py 160-182 `PaginationTests` -/
def paginationTests {σ : Type} (call : Call) (cursor : σ → RVal) : List (Test σ) :=
  [⟨py!"test_get_one", 163, doc py!"Pagination: Fetch exactly one", fun client _ _ => getOne cfg call client py!"Has exactly one result entry"⟩,
   ⟨py!"test_pagination", 170, doc py!"Pagination: Fetch using cursor", fun client _ st =>
      if risNone (cursor st) then
        .abort (Res.new py!"Cannot check pagination, there must be at least 2 entities" .warning)
      else getOne cfg call client py!"Exactly one entry"⟩]

/-- a suite whose `setup` does nothing -/
def plainSuite (operation : Str) (call : Call) (tests : List (Test Unit)) : Suite where
  operation := operation
  errorArgs := call.params
  successArgs := call.params
  σ := Unit
  setup _ := .pure ()
  valid _ := []
  invokeError := call.error cfg
  tests := tests

/-- a suite whose `setup` fetches one entry with `first` and keeps the cursor -/
def pagedSuite (operation : Str) (call first : Call) (tests : List (Test RVal)) : Suite where
  operation := operation
  errorArgs := call.params
  successArgs := call.params
  σ := RVal
  setup client := (first.success cfg client limit1).bind fun page => lift (pageCursor page)
  valid _ := []
  invokeError := call.error cfg
  tests := tests

/-! ### aas.py -/

/-- aas.py 55-68 `GetShellTestSuite` -/
def getShellSuite : Suite :=
  plainSuite cfg py!"GetAssetAdministrationShell" getShell [fetch cfg getShell py!"test_no_params" 64 py!"Fetch Shell"]

/-- aas.py 71-85 `GetShellReferenceTestSuite` -/
def getShellReferenceSuite : Suite :=
  plainSuite cfg py!"GetAssetAdministrationShell-Reference" getShellReference
    [fetch cfg getShellReference py!"test_no_params" 81 py!"Fetch Shell Reference"]

/-- aas.py 88-114 `GetAllSubmodelReferencesTestSuite` -/
def getAllSubmodelReferencesSuite : Suite :=
  pagedSuite cfg py!"GetAllSubmodelReferences" getAllSubmodelReferences getAllSubmodelReferences
    (paginationTests cfg getAllSubmodelReferences id ++ [fetch cfg getAllSubmodelReferences py!"test_simple" 110 py!"Fetch all references"])

/-- aas.py 117-131 `GetAssetInformationTestSuite` -/
def getAssetInformationSuite : Suite :=
  plainSuite cfg py!"GetAssetInformation" getAssetInformation [fetch cfg getAssetInformation py!"test_fetch" 127 py!"Fetch Asset Information"]

/-- aas.py 134-148 `GetThumbnailTestSuite` -/
def getThumbnailSuite : Suite :=
  plainSuite cfg py!"GetThumbnail" getThumbnail [fetch cfg getThumbnail py!"test_fetch" 141 py!"Fetch thumbnail"]

/-! ### aas_repo.py -/

/-- the attributes of `GetAllAasTestSuiteBase` -/
structure ShellState where
  idShort : Str
  assetId : ArgVal
  cursor : RVal

/-- aas_repo.py 58-67: the values of the first shell -/
def shellState (page : RVal) : Except PyExc ShellState := do
  let shell ← firstResult page
  let i ← rattr shell (.model .idShort)
  let idShort ← rraw i
  let info ← rattr shell (.model .assetInformation)
  let g ← rattr info (.model .globalAssetId)
  let globalAssetId ← rraw g
  let assetId ←
    if !globalAssetId.isEmpty then pure (ArgVal.assetId py!"globalAssetId" globalAssetId)
    else do
      let l ← rattr info (.model .specificAssetIds)
      let s ← rfirst l
      let n ← rattr s (.model .name)
      let n ← rraw n
      let v ← rattr s (.model .value)
      let v ← rraw v
      pure (.assetId n v)
  let cursor ← pageCursor page
  return ⟨idShort, assetId, cursor⟩

/-- aas_repo.py 55-68 `GetAllAasTestSuiteBase.setup` -/
def shellSetup (client : Client) : ApiM ShellState :=
  (getAllShells.success cfg client limit1).bind fun page => lift (shellState page)

/-- `len(result.result)` -/
def resultLen (page : RVal) : Except PyExc Nat := do
  let l ← rattr page .result
  rlen l

/-- aas_repo.py 70-88 the tests of `GetAllAasTestSuiteBase` -/
def shellTests (call : Call) : List (Test ShellState) :=
  [⟨py!"test_filter_by_asset_id", 83, doc py!"Filter by assetId", fun client _ st =>
      (call.success cfg client [(py!"asset_id", st.assetId)]).bind fun page =>
      (lift (resultLen page)).bind fun n =>
      assert_ (n != 0) py!"Returns non-empty list"⟩,
   ⟨py!"test_filter_by_non_existing_idshort", 76, doc py!"Filter by non-existing idShort", fun client _ _ =>
      (call.success cfg client [(py!"id_short", .str py!"does-not-exist")]).bind fun page =>
      (lift (resultLen page)).bind fun n =>
      assert_ (n == 0) py!"Result is empty"⟩,
   fetch cfg call py!"test_no_parameters" 70 py!"Invoke without parameters"]

/-- aas_repo.py 91-130 `GetAllAasTestSuite` -/
def getAllShellsSuite : Suite where
  operation := py!"GetAllAssetAdministrationShells"
  errorArgs := getAllShells.params
  successArgs := getAllShells.params
  σ := ShellState
  setup := shellSetup cfg
  valid _ := []
  invokeError := getAllShells.error cfg
  tests := shellTests cfg getAllShells ++ paginationTests cfg getAllShells ShellState.cursor ++
    [⟨py!"test_filter_by_idshort", 121, doc py!"Filter by idShort", fun client _ st =>
      (getAllShells.success cfg client [(py!"id_short", .str st.idShort)]).bind fun page =>
      (lift (resultLen page)).bind fun n =>
      (assert_ (decide (0 < n)) py!"Returns entries").bind fun _ =>
      (lift (do
        let shell ← firstResult page
        let i ← rattr shell (.model .idShort)
        rraw i)).bind fun idShort =>
      assert_ (idShort == st.idShort) py!"Result has the requested idShort"⟩]

/-- aas_repo.py 133-178 `GetAllAasRefsTestSuite` -/
def getAllShellsReferenceSuite : Suite where
  operation := py!"GetAllAssetAdministrationShells-Reference"
  errorArgs := getAllShellsReference.params
  successArgs := getAllShellsReference.params
  σ := ShellState
  setup := shellSetup cfg
  valid _ := []
  invokeError := getAllShellsReference.error cfg
  tests := shellTests cfg getAllShellsReference ++ paginationTests cfg getAllShellsReference ShellState.cursor ++
    [⟨py!"test_filter_by_idshort", 173, doc py!"Filter by idShort", fun client _ st =>
      (getAllShellsReference.success cfg client [(py!"id_short", .str st.idShort)]).bind fun page =>
      (lift (resultLen page)).bind fun n =>
      assert_ (decide (0 < n)) py!"Returns entries"⟩]

/-- `shells.result[0].id.raw_value`, `result.result[0].id.raw_value` -/
def firstId (page : RVal) : Except PyExc Str := do
  let x ← firstResult page
  idOf x

/-- a test of an operation that gets the id: the result is checked by `found` -/
def byId (call : Call) (arg : Str) (name : Str) (line : Nat) (title : Str) (found : Option ((RVal → Except PyExc Str) × Str)) : Test Str :=
  ⟨name, line, doc title, fun client _ validId =>
    (lift (base64String validId)).bind fun v =>
    (call.success cfg client [(arg, v)]).bind fun r =>
    match found with
    | none => .pure ()
    | some (f, message) => (lift (f r)).bind fun i => assert_ (i == validId) message⟩

/-- aas_repo.py 181-201, 204-224 `GetAasByIdTestSuite`, `GetAasByIdReferenceTestSuite` -/
def shellByIdSuite (operation : Str) (call : Call) (test : Test Str) : Suite where
  operation := operation
  errorArgs := call.params
  successArgs := call.params
  σ := Str
  setup client := (getAllShells.success cfg client limit1).bind fun page => lift (firstId page)
  valid _ := []
  invokeError := call.error cfg
  tests := [test]

/-- aas_repo.py 181-201 `GetAasByIdTestSuite` -/
def getShellByIdSuite : Suite :=
  shellByIdSuite cfg py!"GetAssetAdministrationShellById" getShellById
    (byId cfg getShellById py!"aas_id" py!"test_get" 196 py!"Fetch AAS" (some (idOf, py!"Returns the requested aas")))

/-- aas_repo.py 204-224 `GetAasByIdReferenceTestSuite` -/
def getShellByIdReferenceSuite : Suite :=
  shellByIdSuite cfg py!"GetAssetAdministrationShellById-Reference" getShellByIdReference
    (byId cfg getShellByIdReference py!"aas_id" py!"test_get" 219 py!"Fetch AAS Reference" (some (firstKey, py!"Returns the requested aas")))

/-! ### description.py, serialization.py -/

/-- description.py 23-38 `GetDescriptionTestSuite` -/
def getDescriptionSuite : Suite :=
  plainSuite cfg py!"GetDescription" getDescription
    [⟨py!"test_contains_suite", 33, doc py!"Returned profiles must contain suite", fun client profile _ =>
      (getDescription.success cfg client []).bind fun specs =>
      (lift (rattr specs .profiles)).bind fun l =>
      (lift (rcontains profile l)).bind fun b =>
      assert_ b (py!"Contains " ++ profile) .warning⟩]

/-- serialization.py 19-21 -/
def serializationState (page : RVal) : Except PyExc (ArgVal × ArgVal) := do
  let shell ← firstResult page
  let i ← idOf shell
  let validId ← base64String i
  let s ← firstSubmodel shell
  let validSubmodId ← base64String s
  return (validId, validSubmodId)

/-- serialization.py 15-83 `GenerateSerializationSuite` -/
def generateSerializationSuite : Suite where
  operation := py!"GenerateSerializationByIds"
  errorArgs := generateSerialization.params
  successArgs := generateSerialization.params
  σ := ArgVal × ArgVal
  setup client := (getAllShells.success cfg client limit1).bind fun page => lift (serializationState page)
  valid _ := []
  invokeError := generateSerialization.error cfg
  tests :=
    [⟨py!"test_filter_by_aasids", 62, doc py!"Filter by aas ids", fun client _ st =>
        (generateSerialization.success cfg client [(py!"aas_id", st.1)]).bind fun _ => .pure ()⟩,
     ⟨py!"test_filter_by_submodel_ids", 68, doc py!"Filter by submodel ids", fun client _ st =>
        (generateSerialization.success cfg client [(py!"submodel_id", st.2)]).bind fun _ => .pure ()⟩,
     ⟨py!"test_include_concept_descriptions", 74, doc py!"Invoke with includeConceptDescriptions", fun client _ _ =>
        (generateSerialization.success cfg client [(py!"include_concept_descriptions", .bool true)]).bind fun env =>
        (lift (rattr env (.model .conceptDescriptions))).bind fun l =>
        assert_ (!risNone l) py!"contains conceptDescriptions" .warning⟩,
     fetch cfg generateSerialization py!"test_simple" 56 py!"Invoke without parameters"]

/-! ### submodel.py -/

/-- submodel.py 119-133 `GetSubmodelTestSuite` -/
def getSubmodelSuite : Suite :=
  plainSuite cfg py!"GetSubmodel" getSubmodel [fetch cfg getSubmodel py!"test_no_params" 129 py!"Fetch submodel"]

/-- submodel.py 136-150 `GetSubmodelMetaTestSuite` -/
def getSubmodelMetaSuite : Suite :=
  plainSuite cfg py!"GetSubmodel-Metadata" getSubmodelMeta [fetch cfg getSubmodelMeta py!"test_no_params" 146 py!"Fetch submodel"]

/-- submodel.py 153-168 `GetSubmodelValueTestSuite` -/
def getSubmodelValueSuite : Suite :=
  plainSuite cfg py!"GetSubmodel-ValueOnly" getSubmodelValue [fetch cfg getSubmodelValue py!"test_no_params" 164 py!"Fetch submodel"]

/-- submodel.py 171-185 `GetSubmodelReferenceTestSuite` -/
def getSubmodelReferenceSuite : Suite :=
  plainSuite cfg py!"GetSubmodel-Reference" getSubmodelReference
    [fetch cfg getSubmodelReference py!"test_no_params" 181 py!"Fetch submodel reference"]

/-- submodel.py 188-202 `GetSubmodelPathTestSuite` -/
def getSubmodelPathSuite : Suite :=
  plainSuite cfg py!"GetSubmodel-Path" getSubmodelPath [fetch cfg getSubmodelPath py!"test_no_params" 198 py!"Fetch submodel path"]

def level (v : ArgVal) : Kwargs := [(py!"level", v)]
def extent (v : ArgVal) : Kwargs := [(py!"extent", v)]
def levelExtent (l e : ArgVal) : Kwargs := [(py!"level", l), (py!"extent", e)]

/-- submodel.py 229-315 `GetAllSubmodelElementsTestSuite`; lines 309 and 315 pass other arguments than their docstrings say -/
def getAllSubmodelElementsSuite : Suite :=
  pagedSuite cfg py!"GetAllSubmodelElements" getAllSubmodelElements getAllSubmodelElements
    ([fetch cfg getAllSubmodelElements py!"test_core_with_blob_value" 305
        py!"Fetch all submodel elements with level=core and extend=withBlobValue" (levelExtent deep withBlob),
      fetch cfg getAllSubmodelElements py!"test_core_without_blob_value" 293
        py!"Fetch all submodel elements with level=core and extend=withoutBlobValue" (levelExtent core withoutBlob),
      fetch cfg getAllSubmodelElements py!"test_deep_with_blob_value" 311
        py!"Fetch all submodel elements with level=deep and extend=withBlobValue" (levelExtent deep withoutBlob),
      fetch cfg getAllSubmodelElements py!"test_deep_without_blob_value" 299
        py!"Fetch all submodel elements with level=deep and extend=withoutBlobValue" (levelExtent deep withoutBlob),
      fetch cfg getAllSubmodelElements py!"test_extent_with_blob_value" 281
        py!"Fetch all submodel elements with extent=withBlobValue" (extent withBlob),
      fetch cfg getAllSubmodelElements py!"test_extent_without_blob_value" 287
        py!"Fetch all submodel elements with extent=withoutBlobValue" (extent withoutBlob)] ++
     paginationTests cfg getAllSubmodelElements id ++
     [fetch cfg getAllSubmodelElements py!"test_level_core" 269 py!"Fetch all submodel elements with level=core" (level core),
      fetch cfg getAllSubmodelElements py!"test_level_deep" 275 py!"Fetch all submodel elements with level=deep" (level deep),
      fetch cfg getAllSubmodelElements py!"test_simple" 263 py!"Fetch all submodel elements"])

/-- submodel.py 318-352 `GetAllSubmodelElementsMetaTestSuite` -/
def getAllSubmodelElementsMetaSuite : Suite :=
  pagedSuite cfg py!"GetAllSubmodelElements-Metadata" getAllSubmodelElementsMeta getAllSubmodelElementsMeta
    (paginationTests cfg getAllSubmodelElementsMeta id ++
      [fetch cfg getAllSubmodelElementsMeta py!"test_simple" 348 py!"Fetch all submodel elements (metadata)"])

/-- submodel.py 205-226 `GetAllSubmodelElementsValueOnlyTests` -/
def levelTests (call : Call) : List (Test RVal) :=
  paginationTests cfg call id ++
  [fetch cfg call py!"test_level_core" 216 py!"Fetch all submodel elements with level=core" (level core),
   fetch cfg call py!"test_level_deep" 222 py!"Fetch all submodel elements with level=deep" (level deep),
   fetch cfg call py!"test_simple" 210 py!"Fetch all submodel elements"]

/-- submodel.py 355-383 `GetAllSubmodelElementsValueOnlyTestSuite` -/
def getAllSubmodelElementsValueSuite : Suite :=
  pagedSuite cfg py!"GetAllSubmodelElements-ValueOnly" getAllSubmodelElementsValue getAllSubmodelElementsValue
    (levelTests cfg getAllSubmodelElementsValue)

/-- submodel.py 386-417 `GetAllSubmodelElementsReferenceTestSuite`: no `setup`, so `cursor` stays `None` -/
def getAllSubmodelElementsReferenceSuite : Suite :=
  plainSuite cfg py!"GetAllSubmodelElements-Reference" getAllSubmodelElementsReference
    (paginationTests cfg getAllSubmodelElementsReference (fun _ => .none) ++
      [fetch cfg getAllSubmodelElementsReference py!"test_simple" 413 py!"Fetch all submodel elements (references)"])

/-- submodel.py 420-448 `GetAllSubmodelElementsPathTestSuite` -/
def getAllSubmodelElementsPathSuite : Suite :=
  pagedSuite cfg py!"GetAllSubmodelElements-Path" getAllSubmodelElementsPath getAllSubmodelElementsPath
    (levelTests cfg getAllSubmodelElementsPath)

/-- `Dict[str, List[str]]` by the names of classes -/
abbrev Paths := List (Str × List Str)

/-- submodel.py 461 `paths[model_type].append(id_short)` -/
def addPath (k path : Str) : Paths → Paths
  | [] => [(k, [path])]
  | (k', l) :: rest => if k' = k then (k', l ++ [path]) :: rest else (k', l) :: addPath k path rest

/-- submodel.py 451-452 `_model_type(element.__class__)` -/
def modelType : RCls → Str
  | .model c => c.pyName
  | _ => []

mutual
/-- submodel.py 456-465 the loop body -/
def collect (pre : Str) (idx : Nat) (paths : Paths) : RVal → Except PyExc Paths
  | .obj c attrs =>
    match rlookup (.model .idShort) attrs with
    | some (.sfv _ s) =>
      let idShort := pre ++ s
      let paths := addPath (modelType c) idShort paths
      if c = .model .submodelElementCollection then collectA (idShort ++ py!".") paths attrs
      else if c = .model .submodelElementList then collectA (Py.natStr idx ++ py!".") paths attrs
      else .ok paths
    | some .none => .ok paths
    | _ => .error .attributeError
  | _ => .error .attributeError
/-- `element.value` -/
def collectA (pre : Str) (paths : Paths) : List (RFld × RVal) → Except PyExc Paths
  | [] => .error .attributeError
  | (f, v) :: rest =>
    if f = .model .value then
      match v with
      | .list l => collectL pre 0 paths l
      | _ => .error .typeError
    else collectA pre paths rest
/-- submodel.py 455-465 `_collect_submodel_elements` -/
def collectL (pre : Str) (idx : Nat) (paths : Paths) : List RVal → Except PyExc Paths
  | [] => .ok paths
  | v :: vs =>
    match collect pre idx paths v with
    | .error e => .error e
    | .ok paths => collectL pre (idx + 1) paths vs
end

/-- submodel.py 487-490: the paths, and the first one -/
def elementState (page : RVal) : Except PyExc (Paths × Str) := do
  let l ← rattr page .result
  let paths ← match l with
    | .list l => collectL [] 0 [] l
    | _ => .error .typeError
  match paths with
  | [] => .error .stopIteration
  | (_, p :: _) :: _ => return (paths, p)
  | (_, []) :: _ => .error .indexError

/-- submodel.py 468-490 `GetAllSubmodelElementsTestSuiteBase` -/
def elementSuite (operation : Str) (call : Call) (tests : List (Test (Paths × Str))) : Suite where
  operation := operation
  errorArgs := call.params
  successArgs := call.params
  σ := Paths × Str
  setup client := (getAllSubmodelElements.success cfg client []).bind fun page => lift (elementState page)
  valid st := [(py!"id_short_path", .str st.2)]
  invokeError := call.error cfg
  tests := tests

/-- submodel.py 469-484 -/
def allSubmodelElements : List Cls :=
  [.submodelElementCollection, .submodelElementList, .entity, .basicEventElement, .capability, .operation, .property,
   .multiLanguageProperty, .range, .referenceElement, .relationshipElement, .annotatedRelationshipElement, .blob, .file]

/-- submodel.py 580-593, 621-634: without capabilities and operations -/
def someSubmodelElements : List Cls :=
  [.submodelElementCollection, .submodelElementList, .entity, .basicEventElement, .property,
   .multiLanguageProperty, .range, .referenceElement, .relationshipElement, .annotatedRelationshipElement, .blob, .file]

/-- `self.paths[model_type][0]`, `none` if `model_type not in self.paths` -/
def pathFor (paths : Paths) (k : Str) : Option Str :=
  match paths.find? fun p => p.1 == k with
  | some (_, p :: _) => some p
  | _ => none

/-- submodel.py 539-548, 604-613, 667-673, 730-739, 774-783 `check_type`; `supported` is the set of supported elements, `kw` are the
further keyword arguments -/
def checkType (call : Call) (supported : List Cls) (kw : Kwargs) (client : Client) (paths : Paths) : List Cls → ApiM Unit
  | [] => .pure ()
  | c :: cs =>
    .block (Res.new (py!"Checking " ++ c.pyName)) false
      (match pathFor paths c.pyName with
      | none => .abort (Res.new py!"No such element present" .warning)
      | some p =>
        if supported.contains c then (call.success cfg client ((py!"id_short_path", .str p) :: kw)).bind fun _ => .pure ()
        else call.error cfg client ((py!"id_short_path", .str p) :: kw))
      fun _ _ => checkType call supported kw client paths cs

/-- a test that calls `check_type`; it has no docstring -/
def typeTest (call : Call) (supported : List Cls) (name : Str) (line : Nat) (kw : Kwargs) : Test (Paths × Str) :=
  ⟨name, line, none, fun client _ st => checkType cfg call supported kw client st.1 allSubmodelElements⟩

/-- submodel.py 550-575, 675-700 the tests of `GetSubmodelElementTestSuite` and `GetSubmodelElementValueTestSuite`; `n` is the line of
the first. Parameters left out are `None`. -/
def typeTests (call : Call) (supported : List Cls) (n : Nat) : List (Test (Paths × Str)) :=
  [typeTest cfg call supported py!"test_core_with_blob_value" (n + 21) (levelExtent core withBlob),
   typeTest cfg call supported py!"test_core_without_blob_value" (n + 15) (levelExtent core withoutBlob),
   typeTest cfg call supported py!"test_deep_with_blob_value" (n + 24) (levelExtent deep withBlob),
   typeTest cfg call supported py!"test_deep_without_blob_value" (n + 18) (levelExtent deep withoutBlob),
   typeTest cfg call supported py!"test_extend_with_blob_value" (n + 9) (levelExtent .none withBlob),
   typeTest cfg call supported py!"test_extend_without_blob_value" (n + 12) (levelExtent .none withoutBlob),
   typeTest cfg call supported py!"test_level_core" (n + 6) (levelExtent core .none),
   typeTest cfg call supported py!"test_level_deep" (n + 3) (levelExtent deep .none),
   typeTest cfg call supported py!"test_no_params" n (levelExtent .none .none)]

/-- submodel.py 493-575 `GetSubmodelElementTestSuite` -/
def getElementSuite : Suite := elementSuite cfg py!"GetSubmodelElementByPath" getElement (typeTests cfg getElement allSubmodelElements 550)

/-- submodel.py 578-616 `GetSubmodelElementMetaTestSuite` -/
def getElementMetaSuite : Suite :=
  elementSuite cfg py!"GetSubmodelElementByPath-Metadata" getElementMeta
    [typeTest cfg getElementMeta someSubmodelElements py!"test_no_params" 615 []]

/-- submodel.py 619-700 `GetSubmodelElementValueTestSuite`: `check_type` expects success for all elements (673) -/
def getElementValueSuite : Suite :=
  elementSuite cfg py!"GetSubmodelElementByPath-ValueOnly" getElementValue (typeTests cfg getElementValue allSubmodelElements 675)

/-- submodel.py 703-742 `GetSubmodelElementReferenceTestSuite` -/
def getElementReferenceSuite : Suite :=
  elementSuite cfg py!"GetSubmodelElementByPath-Reference" getElementReference
    [typeTest cfg getElementReference allSubmodelElements py!"test_no_params" 741 []]

/-- submodel.py 750-786 `GetSubmodelElementPathTestSuite` -/
def getElementPathSuite : Suite :=
  elementSuite cfg py!"GetSubmodelElementByPath-Path" getElementPath
    [typeTest cfg getElementPath [.submodelElementCollection, .submodelElementList, .entity] py!"test_no_params" 785 []]

/-- submodel.py 789-811 `GetFileByPathTestSuite`; `self.paths` is a `defaultdict` -/
def getFileSuite : Suite :=
  elementSuite cfg py!"GetFileByPath" getFile
    [⟨py!"test_no_params", 801, none, fun client _ st =>
      match pathFor st.1 py!"File" with
      | none => .abort (Res.new py!"No submodel element of type 'File' found, skipping test." .warning)
      | some p => (getFile.success cfg client [(py!"id_short_path", .str p)]).bind fun _ => .pure ()⟩]

/-! ### submodel_repo.py -/

/-- submodel_repo.py 76-222: the suites of `GetAllSubmodels` and its variants; `setup` always asks `/submodels` -/
def allSubmodelsSuite (operation : Str) (call : Call) (line : Nat) : Suite :=
  pagedSuite cfg operation call getAllSubmodels
    (paginationTests cfg call id ++ [fetch cfg call py!"test_no_params" line py!"Invoke without parameters"])

/-- submodel_repo.py 76-100 -/
def getAllSubmodelsSuite : Suite := allSubmodelsSuite cfg py!"GetAllSubmodels" getAllSubmodels 96
/-- submodel_repo.py 103-130 -/
def getAllSubmodelsMetaSuite : Suite := allSubmodelsSuite cfg py!"GetAllSubmodels-Metadata" getAllSubmodelsMeta 126
/-- submodel_repo.py 133-160 -/
def getAllSubmodelsValueSuite : Suite := allSubmodelsSuite cfg py!"GetAllSubmodels-ValueOnly" getAllSubmodelsValue 156
/-- submodel_repo.py 163-192 -/
def getAllSubmodelsReferenceSuite : Suite := allSubmodelsSuite cfg py!"GetAllSubmodels-Reference" getAllSubmodelsReference 188
/-- submodel_repo.py 195-222 -/
def getAllSubmodelsPathSuite : Suite := allSubmodelsSuite cfg py!"GetAllSubmodels-Path" getAllSubmodelsPath 218

/-- where the id of a submodel comes from: submodel_repo.py 233-237 `SetupForAas`, 240-244 `SetupForSubmodel` -/
inductive From
  | aas | submodel
  deriving DecidableEq

/-- submodel_repo.py 234-237, 241-244 -/
def From.setup (from_ : From) (client : Client) : ApiM Str :=
  match from_ with
  | .aas =>
    (getAllSubmodelReferences.success cfg client limit1).bind fun page =>
    (lift (do
      let r ← firstResult page
      firstKey r)).bind fun i =>
    (lift (base64String i)).bind fun _ => .pure i
  | .submodel =>
    (getAllSubmodels.success cfg client limit1).bind fun page =>
    (lift (firstId page)).bind fun i =>
    (lift (base64String i)).bind fun _ => .pure i

/-- submodel_repo.py 247-413: the suites of `GetSubmodelById` and its variants -/
def submodelByIdSuite (from_ : From) (operation : Str) (call : Call) (line : Nat) (found : Option ((RVal → Except PyExc Str) × Str)) : Suite where
  operation := operation
  errorArgs := call.params
  successArgs := call.params
  σ := Str
  setup := from_.setup cfg
  valid st := [(py!"submodel_id", .sfv true st)]
  invokeError := call.error cfg
  tests := [byId cfg call py!"submodel_id" py!"test_simple" line py!"Fetch submodel by id" found]

/-- submodel_repo.py 247-283 -/
def getSubmodelByIdSuite (from_ : From) : Suite :=
  submodelByIdSuite cfg from_ py!"GetSubmodelById" getSubmodelById 270 (some (idOf, py!"Returns the right one"))
/-- submodel_repo.py 286-312 -/
def getSubmodelByIdMetaSuite (from_ : From) : Suite :=
  submodelByIdSuite cfg from_ py!"GetSubmodelById-Metadata" getSubmodelByIdMeta 299 (some (idOf, py!"Returns the right one"))
/-- submodel_repo.py 315-356; the classes with this content are called `GetSubmodelByIdReferenceTestSuite_...` -/
def getSubmodelByIdValueSuite (from_ : From) : Suite :=
  submodelByIdSuite cfg from_ py!"GetSubmodelById-ValueOnly" getSubmodelByIdValue 343 none
/-- submodel_repo.py 359-385; the classes with this content are called `GetSubmodelByIdValueTestSuite_...` -/
def getSubmodelByIdReferenceSuite (from_ : From) : Suite :=
  submodelByIdSuite cfg from_ py!"GetSubmodelById-Reference" getSubmodelByIdReference 372 (some (firstKey, py!"Returns the right one"))
/-- submodel_repo.py 388-413 -/
def getSubmodelByIdPathSuite (from_ : From) : Suite :=
  submodelByIdSuite cfg from_ py!"GetSubmodelById-Path" getSubmodelByIdPath 401 none

/-! ## v3_0/api.py: prefixes and table -/

/-- v3_0/api.py 25-26 `no_prefix` -/
def noPrefix : Client → ApiM Str := fun _ => .pure []

/-- v3_0/api.py 29-30 `aas_prefix` -/
def aasPrefix : Client → ApiM Str := fun _ => .pure py!"/aas"

/-- v3_0/api.py 57-58 `submodel_prefix` -/
def submodelPrefix : Client → ApiM Str := fun _ => .pure py!"/submodel"

/-- `f"...{Base64String(raw)}"` -/
def encoded (raw : Str) : Except PyExc Str := do
  let v ← base64String raw
  v.pyStr

/-- v3_0/api.py 33-36 `aas_submodel_prefix`: the shell is requested from `/`, without the prefix `/aas` -/
def aasSubmodelPrefix (client : Client) : ApiM Str :=
  (getShell.success cfg client []).bind fun shell =>
  lift (do
    let i ← firstSubmodel shell
    let s ← encoded i
    return py!"/aas/submodels/" ++ s)

/-- v3_0/api.py 39-42 `aas_repo_prefix` -/
def aasRepoPrefix (client : Client) : ApiM Str :=
  (getAllShells.success cfg client limit1).bind fun page =>
  lift (do
    let i ← firstId page
    let s ← encoded i
    return py!"/shells/" ++ s)

/-- v3_0/api.py 45-49 `aas_repo_submodel_prefix` -/
def aasRepoSubmodelPrefix (client : Client) : ApiM Str :=
  (getAllShells.success cfg client limit1).bind fun page =>
  lift (do
    let shell ← firstResult page
    let i ← idOf shell
    let a ← base64String i
    let s ← firstSubmodel shell
    let b ← base64String s
    let a ← a.pyStr
    let b ← b.pyStr
    return py!"/shells/" ++ (a ++ (py!"/submodels/" ++ b)))

/-- v3_0/api.py 52-55 `submodel_repo_submodel_prefix` -/
def submodelRepoSubmodelPrefix (client : Client) : ApiM Str :=
  (getAllSubmodels.success cfg client limit1).bind fun page =>
  lift (do
    let i ← firstId page
    let s ← encoded i
    return py!"/submodels/" ++ s)

/-- the operations on the elements of a submodel; v3_0/api.py 76-86, 101-117, 132-142, 152-168 -/
def elementOps (pre : Client → ApiM Str) : List Op :=
  [⟨pre, getAllSubmodelElementsSuite cfg⟩, ⟨pre, getAllSubmodelElementsMetaSuite cfg⟩, ⟨pre, getAllSubmodelElementsValueSuite cfg⟩,
   ⟨pre, getAllSubmodelElementsReferenceSuite cfg⟩, ⟨pre, getAllSubmodelElementsPathSuite cfg⟩, ⟨pre, getElementSuite cfg⟩,
   ⟨pre, getElementMetaSuite cfg⟩, ⟨pre, getElementValueSuite cfg⟩, ⟨pre, getElementReferenceSuite cfg⟩, ⟨pre, getElementPathSuite cfg⟩,
   ⟨pre, getFileSuite cfg⟩]

/-- v3_0/api.py 71-75, 96-100, 127-131; the classes of the third and fourth operation are called the other way round -/
def byIdOps (pre : Client → ApiM Str) (from_ : From) : List Op :=
  [⟨pre, getSubmodelByIdSuite cfg from_⟩, ⟨pre, getSubmodelByIdMetaSuite cfg from_⟩, ⟨pre, getSubmodelByIdReferenceSuite cfg from_⟩,
   ⟨pre, getSubmodelByIdValueSuite cfg from_⟩, ⟨pre, getSubmodelByIdPathSuite cfg from_⟩]

/-- v3_0/api.py 63-89 -/
def shellRepoOps : List Op :=
  [⟨noPrefix, getAllShellsSuite cfg⟩, ⟨noPrefix, getAllShellsReferenceSuite cfg⟩, ⟨noPrefix, getShellByIdSuite cfg⟩,
   ⟨noPrefix, getShellByIdReferenceSuite cfg⟩, ⟨aasRepoPrefix cfg, getAssetInformationSuite cfg⟩, ⟨aasRepoPrefix cfg, getThumbnailSuite cfg⟩,
   ⟨aasRepoPrefix cfg, getAllSubmodelReferencesSuite cfg⟩] ++
  byIdOps cfg (aasRepoPrefix cfg) .aas ++ elementOps cfg (aasRepoSubmodelPrefix cfg) ++
  [⟨noPrefix, generateSerializationSuite cfg⟩, ⟨noPrefix, getDescriptionSuite cfg⟩]

/-- v3_0/api.py 90-120 -/
def submodelRepoOps : List Op :=
  [⟨noPrefix, getAllSubmodelsSuite cfg⟩, ⟨noPrefix, getAllSubmodelsMetaSuite cfg⟩, ⟨noPrefix, getAllSubmodelsValueSuite cfg⟩,
   ⟨noPrefix, getAllSubmodelsReferenceSuite cfg⟩, ⟨noPrefix, getAllSubmodelsPathSuite cfg⟩] ++
  byIdOps cfg noPrefix .submodel ++ elementOps cfg (submodelRepoSubmodelPrefix cfg) ++
  [⟨noPrefix, generateSerializationSuite cfg⟩, ⟨noPrefix, getDescriptionSuite cfg⟩]

/-- v3_0/api.py 121-145 -/
def shellOps : List Op :=
  [⟨aasPrefix, getShellSuite cfg⟩, ⟨aasPrefix, getShellReferenceSuite cfg⟩, ⟨aasPrefix, getAssetInformationSuite cfg⟩,
   ⟨aasPrefix, getThumbnailSuite cfg⟩, ⟨aasPrefix, getAllSubmodelReferencesSuite cfg⟩] ++
  byIdOps cfg aasPrefix .aas ++ elementOps cfg (aasSubmodelPrefix cfg) ++
  [⟨aasPrefix, generateSerializationSuite cfg⟩, ⟨noPrefix, getDescriptionSuite cfg⟩]

/-- v3_0/api.py 146-171 -/
def submodelOps : List Op :=
  [⟨submodelPrefix, getSubmodelSuite cfg⟩, ⟨submodelPrefix, getSubmodelMetaSuite cfg⟩, ⟨submodelPrefix, getSubmodelValueSuite cfg⟩,
   ⟨submodelPrefix, getSubmodelReferenceSuite cfg⟩, ⟨submodelPrefix, getSubmodelPathSuite cfg⟩] ++
  elementOps cfg submodelPrefix ++
  [⟨submodelPrefix, generateSerializationSuite cfg⟩, ⟨noPrefix, getDescriptionSuite cfg⟩]

/-- v3_0/api.py 22 -/
def sspPrefix : Str := py!"https://admin-shell.io/aas/API/3/0/"

/-- v3_0/api.py 62-172 `available_suites` -/
def availableSuites : List (Str × List Op) :=
  [(sspPrefix ++ py!"AssetAdministrationShellRepositoryServiceSpecification/SSP-002", shellRepoOps cfg),
   (sspPrefix ++ py!"SubmodelRepositoryServiceSpecification/SSP-002", submodelRepoOps cfg),
   (sspPrefix ++ py!"AssetAdministrationShellServiceSpecification/SSP-002", shellOps cfg),
   (sspPrefix ++ py!"SubmodelServiceSpecification/SSP-002", submodelOps cfg)]

end
end Verif.Api.Suites
