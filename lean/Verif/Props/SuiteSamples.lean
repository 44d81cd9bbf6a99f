import Verif.Props.Suites

/-!
# C67–C70: servers

Servers with valid responses: one that passes all suites, and others that make the engine crash.
-/

namespace Verif.Props
open Verif Verif.Parse Verif.Aas Verif.Spec Verif.Spec.Parse Verif.Spec.Api Verif.Spec.Suites Verif.Spec.Routes Verif.Spec.Generate Verif.Generate Verif.Http
open Verif.Api hiding sane supported
open Verif.Api.Suites

/-! ## a server -/

/-- the parts of a text between these characters -/
def parts (c : Nat) (s : Str) : List Str :=
  s.foldr (fun x acc => if x = c then [] :: acc else match acc with | [] => [[x]] | a :: l => (x :: a) :: l) [[]]

def join (c : Nat) : List Str → Str
  | [] => []
  | [a] => a
  | a :: l => a ++ c :: join c l

/-- the arguments in a path are replaced by `*` -/
def generic : List Str → List Str
  | a :: b :: rest =>
    if a ∈ [py!"shells", py!"submodels", py!"submodel-elements"] ∧ b.head? ≠ some (pc! '$') then a :: py!"*" :: generic rest
    else a :: generic (b :: rest)
  | l => l

def has : Str → Str → Bool
  | [], t => t.isEmpty
  | c :: s, t => t.isPrefixOf (c :: s) || has s t

def refJson (ty i : Str) : Json := .obj [(py!"type", .str py!"ModelReference"), (py!"keys", .arr [.obj [(py!"type", .str ty), (py!"value", .str i)]])]
def pageJson (l : List Json) : Json := .obj [(py!"paging_metadata", .obj [(py!"cursor", .str py!"c")]), (py!"result", .arr l)]
def infoJson : Json := .obj [(py!"assetKind", .str py!"Instance"), (py!"globalAssetId", .str py!"g")]
def shellJson : Json := .obj [(py!"modelType", .str py!"AssetAdministrationShell"), (py!"id", .str py!"a"), (py!"idShort", .str py!"shell"),
  (py!"assetInformation", infoJson), (py!"submodels", .arr [refJson py!"Submodel" py!"s"])]
def propertyJson : Json := .obj [(py!"modelType", .str py!"Property"), (py!"idShort", .str py!"p"), (py!"valueType", .str py!"xs:int")]
def submodelJson : Json := .obj [(py!"modelType", .str py!"Submodel"), (py!"id", .str py!"s"), (py!"submodelElements", .arr [propertyJson])]
def shellRef : Json := refJson py!"AssetAdministrationShell" py!"a"
def submodelRef : Json := refJson py!"Submodel" py!"s"
def elementRef : Json := .obj [(py!"type", .str py!"ModelReference"), (py!"keys", .arr [.obj [(py!"type", .str py!"Submodel"), (py!"value", .str py!"s")],
  .obj [(py!"type", .str py!"Property"), (py!"value", .str py!"p")]])]
def environmentJson : Json :=
  .obj [(py!"conceptDescriptions", .arr [.obj [(py!"modelType", .str py!"ConceptDescription"), (py!"id", .str py!"c")]])]
def pathsJson : Json := .arr [.str py!"p"]

def variants (base : Str) (self ref : Json) : List (Str × Json) :=
  [(base, self), (base ++ py!"/$metadata", self), (base ++ py!"/$reference", ref), (base ++ py!"/$value", .obj []), (base ++ py!"/$path", pathsJson)]

def pages (base : Str) (self ref : Json) : List (Str × Json) :=
  [(base, pageJson [self]), (base ++ py!"/$metadata", pageJson [self]), (base ++ py!"/$reference", pageJson [ref]), (base ++ py!"/$value", pageJson [.obj []]),
   (base ++ py!"/$path", pageJson [.str py!"p"])]

def submodelJsons (base : Str) : List (Str × Json) :=
  variants base submodelJson submodelRef ++ pages (base ++ py!"/submodel-elements") propertyJson elementRef ++
  (variants (base ++ py!"/submodel-elements/*") propertyJson elementRef).take 4

def shellJsons (base : Str) : List (Str × Json) :=
  [(base, shellJson), (base ++ py!"/$reference", shellRef), (base ++ py!"/asset-information", infoJson), (base ++ py!"/asset-information/thumbnail", .null),
   (base ++ py!"/submodel-refs", pageJson [submodelRef])] ++ submodelJsons (base ++ py!"/submodels/*")

/-- the contents of the server; the last ones are there as the engine asks for them -/
def contents : List (Str × Json) :=
  [(py!"", .null), (py!"/shells", pageJson [shellJson]), (py!"/shells/$reference", pageJson [shellRef])] ++ shellJsons py!"/shells/*" ++
  pages py!"/submodels" submodelJson submodelRef ++ submodelJsons py!"/submodels/*" ++ shellJsons py!"/aas" ++ submodelJsons py!"/submodel" ++
  [(py!"/serialization", environmentJson),
   (py!"/description", .obj [(py!"profiles", .arr (services.map fun s => .str s.1))]),
   (py!"/aas/", shellJson), (py!"/submodel/", submodelJson), (py!"/", shellJson)] ++
  [py!"/aas", py!"/submodel"].flatMap fun s => [(s ++ py!"/shells", pageJson [shellJson]), (s ++ py!"/serialization", environmentJson)]

def answer (status : Nat) (j : Json) : Answer := .response { status := status, content := none, json := .ok j }
def errorJson : Json := .obj [(py!"messages", .arr [])]

/-- the answer to a path and a query -/
def reply (contents : List (Str × Json)) (url : Str) : Answer :=
  let path := url.takeWhile (· ≠ pc! '?')
  let query := url.drop path.length
  if has url py!"invalid" || has query py!"%23" || has query py!"limit=-1" then answer 400 errorJson
  else if has query py!"does-not-exist" then answer 200 (pageJson [])
  else match contents.find? fun c => c.1 == join (pc! '/') (generic (parts (pc! '/') path)) with
    | some c => answer 200 c.2
    | none => answer 404 errorJson

/-- a server with these contents, which come first, and those above -/
def server (changes : List (Str × Json)) : List Sent → Sent → Answer := fun _ q => reply (changes ++ contents) (q.url.drop 8)

def plainCfg : Cfg := ⟨none, fun _ => []⟩
def service (i : Nat) : Str := ((services.map (·.1))[i]?).getD []
def runOf (changes : List (Str × Json)) (i : Nat) : Out (Res Str × Mat) × List Sent :=
  run (server changes) (executeTests (availableSuites plainCfg) sampleClient { suite := service i })
/-- the class of the exception that leaves a run -/
def crash (x : Out (Res Str × Mat) × List Sent) : Option PyExc := match x.1 with | .raised e => some e.kind | _ => none
/-- verdict and counters of a run -/
def verdictOf (x : Out (Res Str × Mat) × List Sent) : Option (Bool × Mat) := match x.1 with | .val (r, m) => some (r.ok, m) | _ => none

/-! ## no key twice -/

mutual
def wf : Json → Bool
  | .arr l => wfL l
  | .obj kvs => decide (kvs.map (·.1)).Nodup && wfM kvs
  | _ => true
def wfL : List Json → Bool
  | [] => true
  | j :: l => wf j && wfL l
def wfM : List (Str × Json) → Bool
  | [] => true
  | e :: l => wf e.2 && wfM l
end

mutual
theorem wf_sound : ∀ j, wf j = true → WF j
  | .null, _ => .null
  | .bool b, _ => .bool b
  | .num i, _ => .num i
  | .float t, _ => .float t
  | .str s, _ => .str s
  | .arr l, h => .arr (wfL_sound l (by simpa [wf] using h))
  | .obj kvs, h => by
    simp only [wf, Bool.and_eq_true, decide_eq_true_eq] at h
    exact .obj h.1 (wfM_sound kvs h.2)
theorem wfL_sound : ∀ l, wfL l = true → ∀ j ∈ l, WF j
  | [], _ => by simp
  | j :: l, h => by
    simp only [wfL, Bool.and_eq_true] at h
    exact List.forall_mem_cons.mpr ⟨wf_sound j h.1, wfL_sound l h.2⟩
theorem wfM_sound : ∀ l, wfM l = true → ∀ e ∈ l, WF e.2
  | [], _ => by simp
  | (k, j) :: l, h => by
    simp only [wfM, Bool.and_eq_true] at h
    exact List.forall_mem_cons.mpr ⟨wf_sound j h.1, wfM_sound l h.2⟩
end

theorem server_sound {changes : List (Str × Json)} (h : wfM changes = true) : Sound (server changes) := by
  have hc : wfM contents = true := by decide +kernel
  have hp : WF (pageJson []) := wf_sound _ (by decide +kernel)
  have he : WF errorJson := wf_sound _ (by decide +kernel)
  intro hist q r j hr hj
  unfold server reply at hr
  dsimp only at hr
  split at hr
  · cases hr; cases hj; exact he
  split at hr
  · cases hr; cases hj; exact hp
  split at hr
  · rename_i c hf
    cases hr; cases hj
    rcases List.mem_append.mp (List.mem_of_find?_eq_some hf) with hm | hm
    · exact wfM_sound _ h _ hm
    · exact wfM_sound _ hc _ hm
  · cases hr; cases hj; exact he

/-! ## runs -/

/-- every service can be implemented such that all tests pass -/
example : verdictOf (runOf [] 0) = some (true, ⟨78, 0, 0, 34⟩) := by decide +kernel
example : verdictOf (runOf [] 1) = some (true, ⟨74, 0, 0, 32⟩) := by decide +kernel
example : verdictOf (runOf [] 2) = some (true, ⟨66, 0, 0, 28⟩) := by decide +kernel
example : verdictOf (runOf [] 3) = some (true, ⟨59, 0, 0, 17⟩) := by decide +kernel
example : Sound (server []) ∧ sampleClient.prefixes = [] := ⟨server_sound rfl, rfl⟩
example : (runOf [] 0).2.length = 151 := by decide +kernel
/-- a server that gets one test wrong -/
example : verdictOf (runOf [(py!"/shells/*/asset-information", .obj [])] 0) = some (false, ⟨77, 1, 0, 34⟩) := by decide +kernel

/-- the shell without one attribute -/
def shellWithout (name : Str) : Json := match shellJson with
  | .obj kvs => .obj (kvs.filter fun e => e.1 ≠ name)
  | j => j
/-- its asset is identified by a specific asset id only -/
def shellSpecific : Json := .obj [(py!"modelType", .str py!"AssetAdministrationShell"), (py!"id", .str py!"a"), (py!"idShort", .str py!"shell"),
  (py!"assetInformation", .obj [(py!"assetKind", .str py!"Instance"),
    (py!"specificAssetIds", .arr [.obj [(py!"name", .str py!"n"), (py!"value", .str py!"v")]])]), (py!"submodels", .arr [refJson py!"Submodel" py!"s"])]
def emptyCollection : Json := .obj [(py!"modelType", .str py!"SubmodelElementCollection"), (py!"idShort", .str py!"c")]

/-- all these answers are valid -/
example : ([shellWithout py!"idShort", shellWithout py!"submodels", shellSpecific].map fun j =>
    (parseResponse none (.cls (.page .shells)) (pageJson [j])).map fun x => x.1.ok) = [.ok true, .ok true, .ok true] := by decide +kernel
example : ([[], [emptyCollection]].map fun l =>
    (parseResponse none (.cls (.page .elements)) (pageJson l)).map fun x => x.1.ok) = [.ok true, .ok true] := by decide +kernel

/-- C68 fails: valid answers make a run end with an exception of the engine: no shells, a shell without `idShort`, without `globalAssetId` or
without submodels, no elements, a collection without elements. -/
theorem C68_crash_violated :
    crash (runOf [(py!"/shells", pageJson [])] 0) = some .indexError ∧
    crash (runOf [(py!"/shells", pageJson [shellWithout py!"idShort"])] 0) = some .attributeError ∧
    crash (runOf [(py!"/shells", pageJson [shellSpecific])] 0) = some .attributeError ∧
    crash (runOf [(py!"/shells", pageJson [shellWithout py!"submodels"])] 0) = some .typeError ∧
    crash (runOf [(py!"/submodels/*/submodel-elements", pageJson [])] 1) = some .stopIteration ∧
    crash (runOf [(py!"/submodels/*/submodel-elements", pageJson [emptyCollection])] 1) = some .typeError := by
  refine ⟨?_, ?_, ?_, ?_, ?_, ?_⟩ <;> decide +kernel

/-- a request of the run has this URL -/
def sentUrl (x : Out (Res Str × Mat) × List Sent) (url : Str) : Bool := x.2.any fun q => q.url == url

/-- C69 fails for two operations: the shell and the submodel are requested with a slash at the end, and never from their path; and the
shell whose submodels are tested is requested from the root of the server. -/
theorem C69_slash_violated :
    (sentUrl (runOf [] 2) py!"http://h/aas/" ∧ ¬ sentUrl (runOf [] 2) py!"http://h/aas" ∧ sentUrl (runOf [] 2) py!"http://h/") ∧
    (sentUrl (runOf [] 3) py!"http://h/submodel/" ∧ ¬ sentUrl (runOf [] 3) py!"http://h/submodel") := by
  decide +kernel

example : ¬ Fills [.text py!"/aas"] py!"/aas/" := fun ⟨r, h1, h2⟩ => by
  cases h2
  cases h1

end Verif.Props
