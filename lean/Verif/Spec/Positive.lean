import Verif.Spec.Suites
import Verif.Props.Responses

/-!
# What the positive tests demand

For each operation the tests, with the query parameters that they send and the responses that they accept.
-/

namespace Verif.Spec.Suites
open Verif Verif.Parse Verif.Aas Verif.Spec Verif.Spec.Parse Verif.Spec.Api Verif.Spec.Routes Verif.Http Verif.Generate Verif.Props
open Verif.Api hiding sane supported

/-! ## contents -/

/-- the attribute of an object has this value -/
def HasAttr (v : RVal) (f : RFld) (w : RVal) : Prop := ∃ c attrs, v = .obj c attrs ∧ (attrs.find? fun a => decide (a.1 = f)) = some (f, w)

/-- the entries of a page -/
def Entries (v : RVal) (l : List RVal) : Prop := HasAttr v .result (.list l)

/-- the id of an object -/
def HasId (v : RVal) (i : Str) : Prop := ∃ c, HasAttr v (.model .id) (.sfv c i)

/-- the idShort of an object -/
def HasIdShort (v : RVal) (s : Str) : Prop := ∃ c, HasAttr v (.model .idShort) (.sfv c s)

/-- the first key of a reference has this value -/
def RefersTo (v : RVal) (i : Str) : Prop := ∃ k ks c, HasAttr v (.model .keys) (.list (k :: ks)) ∧ HasAttr k (.model .value) (.sfv c i)

/-- a response with status 200 whose content is of the type, and breaks no rule -/
def Good (lim : Option Nat) (ty : RTy) (r : Response) (v : RVal) : Prop := Acceptable lim ty (· = 200) r v

/-- demands on responses -/
abbrev Demand := Option Nat → Response → Prop

def valid (ty : RTy) : Demand := fun lim r => ∃ v, Good lim ty r v
/-- a valid response that satisfies this -/
def such (ty : RTy) (f : RVal → Prop) : Demand := fun lim r => ∃ v, Good lim ty r v ∧ f v
/-- a page whose entries satisfy this -/
def page (p : Page) (f : List RVal → Prop) : Demand := such (.cls (.page p)) fun v => ∃ l, Entries v l ∧ f l
/-- a JSON object or list, with any status -/
def anyJson : Demand := fun _ r => ∃ j, r.json = .ok j ∧ Container j
/-- any response -/
def anything : Demand := fun _ _ => True

def obj (c : Cls) : RTy := .cls (.model c)

/-! ## texts -/

/-- the text is the base64url form of this one -/
def Encodes (i t : Str) : Prop := ∃ bs, (∀ b ∈ bs, b < 256) ∧ Base64Of t bs ∧ utf8Decode bs = some i

/-- the value of a hexadecimal digit -/
def hexVal (c : Nat) : Option Nat :=
  if 48 ≤ c ∧ c ≤ 57 then some (c - 48) else if 97 ≤ c ∧ c ≤ 102 then some (c - 87) else if 65 ≤ c ∧ c ≤ 70 then some (c - 55) else none

/-- four hexadecimal digits -/
def Hex4 (s : Str) (n : Nat) : Prop :=
  ∃ a b c d a' b' c' d', s = [a, b, c, d] ∧ hexVal a = some a' ∧ hexVal b = some b' ∧ hexVal c = some c' ∧ hexVal d = some d' ∧
    n = ((a' * 16 + b') * 16 + c') * 16 + d'

/-- the characters between the quotes of a JSON string (RFC 8259, section 7), and the text they stand for -/
inductive JsonChars : Str → Str → Prop
  | nil : JsonChars [] []
  | plain {c t v} : 32 ≤ c → c ≠ 34 → c ≠ 92 → JsonChars t v → JsonChars (c :: t) (c :: v)
  | escape {e c t v} : (e, c) ∈ [(34, 34), (92, 92), (47, 47), (pc! 'b', 8), (pc! 'f', 12), (pc! 'n', 10), (pc! 'r', 13), (pc! 't', 9)] →
      JsonChars t v → JsonChars (92 :: e :: t) (c :: v)
  | unicode {ds n t v} : Hex4 ds n → ¬ (0xd800 ≤ n ∧ n < 0xe000) → JsonChars t v → JsonChars (92 :: pc! 'u' :: ds ++ t) (n :: v)
  | pair {ds es m n t v} : Hex4 ds m → Hex4 es n → 0xd800 ≤ m → m < 0xdc00 → 0xdc00 ≤ n → n < 0xe000 → JsonChars t v →
      JsonChars (92 :: pc! 'u' :: ds ++ (92 :: pc! 'u' :: es ++ t)) ((0x10000 + (m - 0xd800) * 1024 + (n - 0xdc00)) :: v)

/-- the text is a JSON object with this name and this value -/
def AssetText (name value t : Str) : Prop :=
  ∃ a b, JsonChars a name ∧ JsonChars b value ∧ t = py!"{\"name\": \"" ++ a ++ py!"\", \"value\": \"" ++ b ++ py!"\"}"

/-! ## what a setup finds -/

/-- a server, the limit for integers, the client, the path of an operation, and the profile that is tested -/
structure Setting where
  env : List Sent → Sent → Answer
  lim : Option Nat
  client : Client
  template : List Seg
  profile : Str

/-- the server answers a request to this path with this -/
def Served (S : Setting) (template : List Seg) (params : List (Str × Str)) (ty : RTy) (v : RVal) : Prop :=
  ∃ h q r, At S.client template params q ∧ S.env h q = .response r ∧ Good S.lim ty r v

/-- the server answers a request for one entry with this page -/
def ServedOne (S : Setting) (template : List Seg) (p : Page) (v : RVal) : Prop := Served S template [(py!"limit", py!"1")] (.cls (.page p)) v

/-- the first entry of a page -/
def FirstOf (S : Setting) (template : List Seg) (p : Page) (x : RVal) : Prop := ∃ v l, ServedOne S template p v ∧ Entries v (x :: l)

/-- two forms of the same paths -/
def SameForm (a b : List Seg) : Prop := ∀ s, Fills a s ↔ Fills b s

/-- what is sent, given by what the server has answered before -/
abbrev Source := Setting → Str → Prop

/-- the idShort of the first shell -/
def shellName : Source := fun S s => ∃ x, FirstOf S [.text py!"/shells"] .shells x ∧ HasIdShort x s

/-- the global asset id of the first shell, as JSON -/
def shellAsset : Source := fun S t => ∃ x info c g, FirstOf S [.text py!"/shells"] .shells x ∧ HasAttr x (.model .assetInformation) info ∧
  HasAttr info (.model .globalAssetId) (.sfv c g) ∧ AssetText py!"globalAssetId" g t

/-- the id of the first shell -/
def shellId : Source := fun S i => ∃ x, FirstOf S [.text py!"/shells"] .shells x ∧ HasId x i

/-- the id of the first shell, requested from `/shells` beside `/serialization` -/
def serializedShell : Source := fun S i => ∃ base x, SameForm S.template (base ++ [.text py!"/serialization"]) ∧
  FirstOf S (base ++ [.text py!"/shells"]) .shells x ∧ HasId x i

/-- the first submodel of the first shell, requested from `/shells` beside `/serialization` -/
def serializedSubmodel : Source := fun S i => ∃ base x r rs, SameForm S.template (base ++ [.text py!"/serialization"]) ∧
  FirstOf S (base ++ [.text py!"/shells"]) .shells x ∧ HasAttr x (.model .submodels) (.list (r :: rs)) ∧ RefersTo r i

/-- the id of the first submodel: of those of the repository, or of those that the shell refers to -/
def submodelId : Source := fun S i => ∃ base rest, SameForm S.template (base ++ .text py!"/submodels/" :: .value :: rest) ∧
  ((Fills base [] ∧ ∃ x, FirstOf S (base ++ [.text py!"/submodels"]) .submodels x ∧ HasId x i) ∨
   (¬ Fills base [] ∧ ∃ x, FirstOf S (base ++ [.text py!"/submodel-refs"]) .submodelRefs x ∧ RefersTo x i))

/-- the cursor of a page -/
def cursorOf (template : Setting → List Seg) (p : Page) (S : Setting) (c : RVal) : Prop :=
  ∃ v m, ServedOne S (template S) p v ∧ HasAttr v .pagingMetadata m ∧ HasAttr m .cursor c

/-- Elements, and the paths that the engine uses for them: `x` is the element at this index of its parent, whose path (with a dot) is `pre`.
Elements without idShort, and all below them, are left out. For elements of lists, only the index of the list is used. -/
inductive Below : Str → Nat → RVal → RVal → Str → Prop
  | self {pre i x s} : HasIdShort x s → Below pre i x x (pre ++ s)
  | collection {pre i attrs s l j z y p} : HasIdShort (.obj (.model .submodelElementCollection) attrs) s →
      HasAttr (.obj (.model .submodelElementCollection) attrs) (.model .value) (.list l) → l[j]? = some z →
      Below (pre ++ s ++ py!".") j z y p → Below pre i (.obj (.model .submodelElementCollection) attrs) y p
  | list {pre i attrs s l j z y p} : HasIdShort (.obj (.model .submodelElementList) attrs) s →
      HasAttr (.obj (.model .submodelElementList) attrs) (.model .value) (.list l) → l[j]? = some z →
      Below (Py.natStr i ++ py!".") j z y p → Below pre i (.obj (.model .submodelElementList) attrs) y p

/-- an element of this class, and its path -/
def Located (l : List RVal) (c : Cls) (p : Str) : Prop := ∃ i x attrs, l[i]? = some x ∧ Below [] i x (.obj (.model c) attrs) p

/-- the idShort path of an element below another one with the path `p`, through containers of these kinds -/
inductive PathOf (kinds : List Cls) : Str → RVal → RVal → Str → Prop
  | self {p x} : PathOf kinds p x x p
  | named {p c f attrs l z s y q} : (c, f) ∈ [(Cls.submodelElementCollection, Fld.value), (.entity, .statements)] → c ∈ kinds →
      HasAttr (.obj (.model c) attrs) (.model f) (.list l) → z ∈ l → HasIdShort z s →
      PathOf kinds (p ++ py!"." ++ s) z y q → PathOf kinds p (.obj (.model c) attrs) y q
  | indexed {p attrs l j z y q} : Cls.submodelElementList ∈ kinds →
      HasAttr (.obj (.model .submodelElementList) attrs) (.model .value) (.list l) → l[j]? = some z →
      PathOf kinds (p ++ py!"[" ++ Py.natStr j ++ py!"]") z y q → PathOf kinds p (.obj (.model .submodelElementList) attrs) y q

/-- an element of this class with this path, below one of these elements -/
def HasPath (kinds : List Cls) (l : List RVal) (c : Cls) (p : Str) : Prop :=
  ∃ x ∈ l, ∃ s attrs, HasIdShort x s ∧ PathOf kinds s x (.obj (.model c) attrs) p

/-- the elements of the submodel -/
def Elements (S : Setting) (l : List RVal) : Prop := ∃ base rest v, SameForm S.template (base ++ .text py!"/submodel-elements/" :: .value :: rest) ∧
  Served S (base ++ [.text py!"/submodel-elements"]) [] (.cls (.page .elements)) v ∧ Entries v l

/-! ## tests -/

/-- A test sends exactly one request, of this form. If the test ends without an exception, it passes iff the response is as demanded by
`good`, and it is not aborted iff the response is as demanded by `full`. There is no exception if the response is as demanded by `good`. -/
def TestsAnswer (S : Setting) (template : List Seg) (params : List (Str × Str)) (good full : Demand) (p : ApiM Unit) : Prop :=
  ∀ h, ∃ q, At S.client template params q ∧ sentBy S.env p h = [q] ∧
    (∀ title v res h', Ends S.env title p h v res h' →
      ∃ r, S.env h q = .response r ∧ (res.ok = true ↔ good S.lim r) ∧ (v = some () ↔ full S.lim r)) ∧
    ∀ r, S.env h q = .response r → good S.lim r → ¬ Throws S.env p h

/-- A test sends nothing and reports only a warning. -/
def Skips (S : Setting) (p : ApiM Unit) : Prop :=
  ∀ h, sentBy S.env p h = [] ∧ ∃ x, (meaning S.env p true h).out = .aborted x ∧ x.level = .warning ∧ (meaning S.env p true h).ents = []

/-- the positive tests -/
inductive Positive
  /-- a request with these query parameters -/
  | get (params : List (Str × Str)) (good : Demand)
  /-- a request with these query parameters; the test passes with a warning if the response is good but not full -/
  | warn (params : List (Str × Str)) (good : Demand) (full : Setting → Demand)
  /-- a request with one query parameter -/
  | filter (param : Str) (value : Source) (good : Str → Demand)
  /-- a request with one query parameter, in base64url -/
  | encoded (param : Str) (value : Source) (good : Str → Demand)
  /-- a request whose path has the base64url form of an id -/
  | byId (value : Source) (good : Str → Demand)
  /-- if there is a cursor, a request with these query parameters -/
  | next (cursor : Setting → RVal → Prop) (params : List (Str × Str)) (good : Demand)
  /-- for each type of elements (if there is one) a request for the path of one, with these query parameters; it is to be rejected for types
  that are not supported -/
  | types (params : List (Str × Str)) (supported : List Cls) (good : Demand)
  /-- a request for the path of a file, if there is one -/
  | file (good : Demand)

/-- the types of elements, in the order of the tests -/
def elementTypes : List Cls :=
  [.submodelElementCollection, .submodelElementList, .entity, .basicEventElement, .capability, .operation, .property,
   .multiLanguageProperty, .range, .referenceElement, .relationshipElement, .annotatedRelationshipElement, .blob, .file]

/-- the test for the path of an element of this type -/
def TestsElement (S : Setting) (l : List RVal) (c : Cls) (params : List (Str × Str)) (good : Demand) (p : ApiM Unit) : Prop :=
  ((¬ ∃ path, Located l c path) ∧ Skips S p) ∨ ∃ path, Located l c path ∧ TestsAnswer S (replaced path S.template) params good good p

/-- the program is such a test -/
def Positive.IsTest (S : Setting) (p : ApiM Unit) : Positive → Prop
  | .get params good => TestsAnswer S S.template params good good p
  | .warn params good full => TestsAnswer S S.template params good (full S) p
  | .filter param value good => ∃ s, value S s ∧ TestsAnswer S S.template [(param, s)] (good s) (good s) p
  | .encoded param value good => ∃ s t, value S s ∧ Encodes s t ∧ TestsAnswer S S.template [(param, t)] (good s) (good s) p
  | .byId value good => ∃ i t, value S i ∧ Encodes i t ∧ TestsAnswer S (replaced t S.template) [] (good i) (good i) p
  | .next cursor params good => ∃ c, cursor S c ∧ (c = .none → Skips S p) ∧ (c ≠ .none → TestsAnswer S S.template params good good p)
  | .types params supported good => ∃ l, Elements S l ∧ ∃ ps : List (ApiM Unit), ps.length = elementTypes.length ∧
      (∀ x ∈ elementTypes.zip ps, TestsElement S l x.1 params (if x.1 ∈ supported then good else Rejection) x.2) ∧
      (∀ h title v res h', Ends S.env title p h v res h' →
        ∃ rs, Ran S.env ((elementTypes.map fun c => py!"Checking " ++ c.pyName).zip ps) h rs h' ∧ IsBlock title rs res) ∧
      ((∀ q ∈ ps, ∀ h, ¬ Throws S.env q h) → ∀ h, ¬ Throws S.env p h)
  | .file good => ∃ l, Elements S l ∧ TestsElement S l .file [] good p

/-! ## the tests of the operations -/

def getOne (p : Page) : Str × Positive := (py!"test_get_one", .get [(py!"limit", py!"1")] (page p (·.length = 1)))
/-- the cursor is not sent -/
def secondPage (cursor : Setting → RVal → Prop) (p : Page) : Str × Positive := (py!"test_pagination", .next cursor [(py!"limit", py!"1")] (page p (·.length = 1)))
/-- the setup asks for one entry at the path of the operation -/
def own (p : Page) : Setting → RVal → Prop := cursorOf Setting.template p
def plain (name : Str) (ty : RTy) : Str × Positive := (name, .get [] (valid ty))

/-- filters for shells; their results are lists of shells or of references -/
def shellFilters (p : Page) (named : Str → List RVal → Prop) : List (Str × Positive) :=
  [(py!"test_filter_by_asset_id", .encoded py!"assetIds" shellAsset fun _ => page p (· ≠ [])),
   (py!"test_filter_by_non_existing_idshort", .get [(py!"idShort", py!"does-not-exist")] (page p (· = []))),
   plain py!"test_no_parameters" (.cls (.page p)), getOne p, secondPage (cursorOf (fun _ => [.text py!"/shells"]) .shells) p,
   (py!"test_filter_by_idshort", .filter py!"idShort" shellName fun s => page p (named s))]

/-- tests of the query parameters `level` and `extent`; the names of two of them do not fit to what they send -/
def levelExtentTests (ty : RTy) : List (Str × Positive) :=
  [(py!"test_core_with_blob_value", .get [(py!"level", py!"deep"), (py!"extent", py!"withBlobValue")] (valid ty)),
   (py!"test_core_without_blob_value", .get [(py!"level", py!"core"), (py!"extent", py!"withoutBlobValue")] (valid ty)),
   (py!"test_deep_with_blob_value", .get [(py!"level", py!"deep"), (py!"extent", py!"withoutBlobValue")] (valid ty)),
   (py!"test_deep_without_blob_value", .get [(py!"level", py!"deep"), (py!"extent", py!"withoutBlobValue")] (valid ty)),
   (py!"test_extent_with_blob_value", .get [(py!"extent", py!"withBlobValue")] (valid ty)),
   (py!"test_extent_without_blob_value", .get [(py!"extent", py!"withoutBlobValue")] (valid ty))]

def levelTests (p : Page) : List (Str × Positive) :=
  [(py!"test_level_core", .get [(py!"level", py!"core")] (valid (.cls (.page p)))),
   (py!"test_level_deep", .get [(py!"level", py!"deep")] (valid (.cls (.page p)))), plain py!"test_simple" (.cls (.page p))]

/-- tests for each type of elements -/
def elementTests (good : Demand) : List (Str × Positive) :=
  [(py!"test_core_with_blob_value", .types [(py!"level", py!"core"), (py!"extent", py!"withBlobValue")] elementTypes good),
   (py!"test_core_without_blob_value", .types [(py!"level", py!"core"), (py!"extent", py!"withoutBlobValue")] elementTypes good),
   (py!"test_deep_with_blob_value", .types [(py!"level", py!"deep"), (py!"extent", py!"withBlobValue")] elementTypes good),
   (py!"test_deep_without_blob_value", .types [(py!"level", py!"deep"), (py!"extent", py!"withoutBlobValue")] elementTypes good),
   (py!"test_extend_with_blob_value", .types [(py!"extent", py!"withBlobValue")] elementTypes good),
   (py!"test_extend_without_blob_value", .types [(py!"extent", py!"withoutBlobValue")] elementTypes good),
   (py!"test_level_core", .types [(py!"level", py!"core")] elementTypes good),
   (py!"test_level_deep", .types [(py!"level", py!"deep")] elementTypes good),
   (py!"test_no_params", .types [] elementTypes good)]

/-- an object with the id that was asked for -/
def sameId (c : Cls) : Str → Demand := fun i => such (obj c) fun v => HasId v i
/-- a reference to the id that was asked for -/
def sameRef : Str → Demand := fun i => such (obj .reference) fun v => RefersTo v i

/-- the cursor of the first page of submodels -/
def firstSubmodels : Setting → RVal → Prop := cursorOf (fun _ => [.text py!"/submodels"]) .submodels

/-- the positive tests of each operation; the setup for `GetAllSubmodelElements-Reference` finds no cursor -/
def positives : List (Str × List (Str × Positive)) :=
  [(py!"GetAllAssetAdministrationShells", shellFilters .shells fun s l => ∃ x xs, l = x :: xs ∧ HasIdShort x s),
   (py!"GetAllAssetAdministrationShells-Reference", shellFilters .shellRefs fun _ l => l ≠ []),
   (py!"GetAssetAdministrationShellById", [(py!"test_get", .byId shellId (sameId .assetAdministrationShell))]),
   (py!"GetAssetAdministrationShellById-Reference", [(py!"test_get", .byId shellId sameRef)]),
   (py!"GetAssetAdministrationShell", [plain py!"test_no_params" (obj .assetAdministrationShell)]),
   (py!"GetAssetAdministrationShell-Reference", [plain py!"test_no_params" (obj .reference)]),
   (py!"GetAssetInformation", [plain py!"test_fetch" (obj .assetInformation)]),
   (py!"GetThumbnail", [(py!"test_fetch", .get [] anything)]),
   (py!"GetAllSubmodelReferences", [getOne .submodelRefs, secondPage (own .submodelRefs) .submodelRefs, plain py!"test_simple" (.cls (.page .submodelRefs))]),
   (py!"GetAllSubmodels", [getOne .submodels, secondPage firstSubmodels .submodels, plain py!"test_no_params" (.cls (.page .submodels))]),
   (py!"GetAllSubmodels-Metadata", [getOne .submodels, secondPage firstSubmodels .submodels, plain py!"test_no_params" (.cls (.page .submodels))]),
   (py!"GetAllSubmodels-ValueOnly", [getOne .submodelValues, secondPage firstSubmodels .submodelValues, plain py!"test_no_params" (.cls (.page .submodelValues))]),
   (py!"GetAllSubmodels-Reference", [getOne .submodelRefs, secondPage firstSubmodels .submodelRefs, plain py!"test_no_params" (.cls (.page .submodelRefs))]),
   (py!"GetAllSubmodels-Path", [getOne .submodelPaths, secondPage firstSubmodels .submodelPaths, plain py!"test_no_params" (.cls (.page .submodelPaths))]),
   (py!"GetSubmodel", [plain py!"test_no_params" (obj .submodel)]),
   (py!"GetSubmodel-Metadata", [plain py!"test_no_params" (obj .submodel)]),
   (py!"GetSubmodel-ValueOnly", [(py!"test_no_params", .get [] anyJson)]),
   (py!"GetSubmodel-Reference", [plain py!"test_no_params" (.cls .unconstrainedReference)]),
   (py!"GetSubmodel-Path", [plain py!"test_no_params" (.list .str true)]),
   (py!"GetSubmodelById", [(py!"test_simple", .byId submodelId (sameId .submodel))]),
   (py!"GetSubmodelById-Metadata", [(py!"test_simple", .byId submodelId (sameId .submodel))]),
   (py!"GetSubmodelById-Reference", [(py!"test_simple", .byId submodelId sameRef)]),
   (py!"GetSubmodelById-ValueOnly", [(py!"test_simple", .byId submodelId fun _ => anyJson)]),
   (py!"GetSubmodelById-Path", [(py!"test_simple", .byId submodelId fun _ => valid (.list .str true))]),
   (py!"GetAllSubmodelElements", levelExtentTests (.cls (.page .elements)) ++ [getOne .elements, secondPage (own .elements) .elements] ++ levelTests .elements),
   (py!"GetAllSubmodelElements-Metadata", [getOne .elements, secondPage (own .elements) .elements, plain py!"test_simple" (.cls (.page .elements))]),
   (py!"GetAllSubmodelElements-ValueOnly", [getOne .elementValues, secondPage (own .elementValues) .elementValues] ++ levelTests .elementValues),
   (py!"GetAllSubmodelElements-Reference", [getOne .elementRefs, secondPage (fun _ c => c = .none) .elementRefs, plain py!"test_simple" (.cls (.page .elementRefs))]),
   (py!"GetAllSubmodelElements-Path", [getOne .elementPaths, secondPage (own .elementPaths) .elementPaths] ++ levelTests .elementPaths),
   (py!"GetSubmodelElementByPath", elementTests (valid (obj .submodelElement))),
   (py!"GetSubmodelElementByPath-Metadata", [(py!"test_no_params", .types [] (elementTypes.filter fun c => c ≠ .capability ∧ c ≠ .operation) anyJson)]),
   (py!"GetSubmodelElementByPath-ValueOnly", elementTests anyJson),
   (py!"GetSubmodelElementByPath-Reference", [(py!"test_no_params", .types [] elementTypes (valid (.cls .unconstrainedReference)))]),
   (py!"GetSubmodelElementByPath-Path", [(py!"test_no_params", .types [] [.submodelElementCollection, .submodelElementList, .entity] (valid (.list .str true)))]),
   (py!"GetFileByPath", [(py!"test_no_params", .file anything)]),
   (py!"GenerateSerializationByIds",
    [(py!"test_filter_by_aasids", .encoded py!"aasIds" serializedShell fun _ => valid (obj .environment)),
     (py!"test_filter_by_submodel_ids", .encoded py!"submodelIds" serializedSubmodel fun _ => valid (obj .environment)),
     (py!"test_include_concept_descriptions", .warn [(py!"includeConceptDescriptions", py!"True")] (valid (obj .environment)) fun _ =>
        such (obj .environment) fun v => ∃ l, HasAttr v (.model .conceptDescriptions) l ∧ l ≠ .none),
     plain py!"test_simple" (obj .environment)]),
   (py!"GetDescription", [(py!"test_contains_suite", .warn [] (valid (.cls .serviceDescription)) fun S =>
      such (.cls .serviceDescription) fun v => ∃ l, HasAttr v .profiles (.list l) ∧ .str S.profile ∈ l)])]

def positivesOf (operation : Str) : List (Str × Positive) := ((positives.find? fun n => n.1 == operation).map (·.2)).getD []

/-- these programs are the tests with these names, one for each, in order -/
inductive PositiveRows (S : Setting) : List (Str × Positive) → List (Str × ApiM Unit) → Prop
  | nil : PositiveRows S [] []
  | cons {name t ts p ps} : Positive.IsTest S p t → PositiveRows S ts ps → PositiveRows S ((name, t) :: ts) ((name, p) :: ps)

/-- these programs are the tests with these names, in this order and with these titles -/
inductive InOrder (S : Setting) (rows : List (Str × Positive)) : List (Str × Str) → List (Str × ApiM Unit) → Prop
  | nil : InOrder S rows [] []
  | cons {name title t ts p ps} : (name, t) ∈ rows → Positive.IsTest S p t → InOrder S rows ts ps →
      InOrder S rows ((name, title) :: ts) ((title, p) :: ps)

end Verif.Spec.Suites
