import Verif.Spec.Positive

/-!
# What the setups of the operations ask for

Before the tests of an operation the engine asks the server for what the tests need: the ids that are part of the path of the operation, and
the values that the tests send. For each operation the requests, what is needed of the responses, and what happens if it is missing.
-/

namespace Verif.Spec.Suites
open Verif Verif.Parse Verif.Aas Verif.Spec Verif.Spec.Parse Verif.Spec.Api Verif.Spec.Routes Verif.Http Verif.Generate Verif.Props
open Verif.Api hiding sane supported

/-- these texts take the places of the ids in the path, in this order -/
def put : List Str → List Seg → List Seg
  | _, [] => []
  | vs, .text t :: rest => .text t :: put vs rest
  | vs, .value :: rest => .value :: put vs rest
  | [], .id :: rest => .id :: put [] rest
  | v :: vs, .id :: rest => .text v :: put vs rest

/-- texts, and their base64url forms -/
def Encoded : List Str → List Str → Prop
  | [], [] => True
  | i :: is, v :: vs => Encodes i v ∧ Encoded is vs
  | _, _ => False

/-- a request of a setup: its path and its parameters, the type of the content, the ids that are found in the content, and the exceptions
that are raised if something is missing -/
structure Ask where
  path : List Seg
  params : List (Str × Str)
  type : RTy
  finds : RVal → List Str → Prop
  lacks : RVal → PyExc → Prop

/-- how a setup ends -/
inductive Outcome
  /-- with these ids -/
  | ready (ids : List Str)
  /-- a valid response does not have what is needed -/
  | lacking (k : PyExc)
  /-- a response is not valid -/
  | rejected
  /-- there is no response, or the check of a response raises an exception -/
  | disturbed

/-- What a setup sends after the requests `h`, and how it ends: the requests are sent in this order, with the ids that have been found before
in the path, until a response is not valid or does not have what is needed. -/
inductive Follows (env : List Sent → Sent → Answer) (lim : Option Nat) (client : Client) : List Ask → List Str → List Sent → List Sent → Outcome → Prop
  | done {ids h} : Follows env lim client [] ids h [] (.ready ids)
  | found {a as ids vs h q qs o r v new} : Encoded ids vs → At client (put vs a.path) a.params q → env h q = .response r → Good lim a.type r v →
      a.finds v new → Follows env lim client as (ids ++ new) (h ++ [q]) qs o → Follows env lim client (a :: as) ids h (q :: qs) o
  | lacking {a as ids vs h q r v k} : Encoded ids vs → At client (put vs a.path) a.params q → env h q = .response r → Good lim a.type r v →
      a.lacks v k → Follows env lim client (a :: as) ids h [q] (.lacking k)
  | rejected {a as ids vs h q r} : Encoded ids vs → At client (put vs a.path) a.params q → env h q = .response r → (∀ v, ¬ Good lim a.type r v) →
      ¬ Failing lim a.type (· = 200) r → Follows env lim client (a :: as) ids h [q] .rejected
  | failing {a as ids vs h q r} : Encoded ids vs → At client (put vs a.path) a.params q → env h q = .response r →
      Failing lim a.type (· = 200) r → Follows env lim client (a :: as) ids h [q] .disturbed
  | unanswered {a as ids vs h q} : Encoded ids vs → At client (put vs a.path) a.params q → (∀ r, env h q ≠ .response r) →
      Follows env lim client (a :: as) ids h [q] .disturbed

/-- how the program ends; if the setup is ready, all that it has reported is ok -/
def EndsAs {α : Type} (o : Outcome) (m : Meaning Sent α) : Prop :=
  match o, m.out with
  | .ready _, .val _ => ∀ s ∈ Ent.toResL m.ents, s.ok = true
  | .lacking k, .raised e => e.kind = k
  | .rejected, .aborted x => x.ok = false
  | .disturbed, .raised _ => True
  | _, _ => False

/-! ## the requests -/

/-- nothing is missing -/
def nothing : RVal → PyExc → Prop := fun _ _ => False

/-- nothing is needed -/
def anything' : RVal → List Str → Prop := fun _ ids => ids = []

/-- one entry is asked for; an `IndexError` is raised if there is none -/
def firstEntry (path : List Seg) (p : Page) (finds : RVal → List Str → Prop := anything') (lacks : RVal → PyExc → Prop := nothing) : Ask where
  path := path
  params := [(py!"limit", py!"1")]
  type := .cls (.page p)
  finds v ids := ∃ x l, Entries v (x :: l) ∧ finds x ids
  lacks v k := (Entries v [] ∧ k = .indexError) ∨ ∃ x l, Entries v (x :: l) ∧ lacks x k

/-- one entry is asked for, only because of the cursor -/
def cursorAsk (path : List Seg) (p : Page) : Ask where
  path := path
  params := [(py!"limit", py!"1")]
  type := .cls (.page p)
  finds := anything'
  lacks := nothing

/-- the first submodel that a shell refers to -/
def FirstSubmodel (x : RVal) (i : Str) : Prop := ∃ r rs, HasAttr x (.model .submodels) (.list (r :: rs)) ∧ RefersTo r i

/-- a shell without submodels -/
def noSubmodels : RVal → PyExc → Prop := fun x k => HasAttr x (.model .submodels) .none ∧ k = .typeError

def theId : RVal → List Str → Prop := fun x ids => ∃ i, HasId x i ∧ ids = [i]

/-- paths that operations are below, and the requests for the ids in them -/
def bases : List (List Seg × List Ask) :=
  [([.text py!"/shells/", .id, .text py!"/submodels/", .id],
    [firstEntry [.text py!"/shells"] .shells (fun x ids => ∃ i s, HasId x i ∧ FirstSubmodel x s ∧ ids = [i, s]) noSubmodels]),
   ([.text py!"/shells/", .id], [firstEntry [.text py!"/shells"] .shells theId]),
   ([.text py!"/submodels/", .id], [firstEntry [.text py!"/submodels"] .submodels theId]),
   ([.text py!"/aas/submodels/", .id],
    [{ path := [.text py!"/"], params := [], type := obj .assetAdministrationShell, finds := fun x ids => ∃ s, FirstSubmodel x s ∧ ids = [s],
       lacks := noSubmodels }]),
   ([.text py!"/aas"], []),
   ([.text py!"/submodel"], [])]

/-- the path that the operation is below, and the requests for the ids in it -/
def baseOf (template : List Seg) : List Seg × List Ask := (bases.find? fun b => b.1.isPrefixOf template).getD ([], [])

/-- the shell has an idShort and a global asset id -/
def named : RVal → List Str → Prop := fun x ids => ids = [] ∧ (∃ s, HasIdShort x s) ∧
  ∃ info c g, HasAttr x (.model .assetInformation) info ∧ HasAttr info (.model .globalAssetId) (.sfv c g)

/-- the shell has no idShort, or no global asset id -/
def unnamed : RVal → PyExc → Prop := fun x k => k = .attributeError ∧
  (HasAttr x (.model .idShort) .none ∨ ∃ info, HasAttr x (.model .assetInformation) info ∧ HasAttr info (.model .globalAssetId) .none)

/-- There is a collection or list without elements. Elements without idShort, and all below them, are left out. -/
def Hollow (l : List RVal) : Prop :=
  ∃ i x c attrs p, l[i]? = some x ∧ Below [] i x (.obj (.model c) attrs) p ∧ c ∈ [Cls.submodelElementCollection, .submodelElementList] ∧
    HasAttr (.obj (.model c) attrs) (.model .value) .none

/-- all elements are asked for -/
def elementsAsk (path : List Seg) : Ask where
  path := path
  params := []
  type := .cls (.page .elements)
  finds v ids := ids = [] ∧ ∃ l, Entries v l ∧ ¬ Hollow l ∧ ∃ x ∈ l, ∃ s, HasIdShort x s
  lacks v k := ∃ l, Entries v l ∧ ((Hollow l ∧ k = .typeError) ∨ (¬ Hollow l ∧ (∀ x ∈ l, ∀ s, ¬ HasIdShort x s) ∧ k = .stopIteration))

/-- the path of the shells beside `/serialization` -/
def besideSerialization (template : List Seg) : List Seg :=
  if template = [.text py!"/aas/serialization"] then [.text py!"/aas/shells"]
  else if template = [.text py!"/submodel/serialization"] then [.text py!"/submodel/shells"]
  else [.text py!"/shells"]

/-- the further requests of the setup of an operation that is below `base` -/
def ownAsks (base : List Seg) (e : Str × List Seg) : List Ask :=
  if e.1 ∈ [py!"GetAllAssetAdministrationShells", py!"GetAllAssetAdministrationShells-Reference"] then [firstEntry [.text py!"/shells"] .shells named unnamed]
  else if e.1 ∈ [py!"GetAssetAdministrationShellById", py!"GetAssetAdministrationShellById-Reference"] then [firstEntry [.text py!"/shells"] .shells]
  else if e.1 = py!"GetAllSubmodelReferences" then [cursorAsk (base ++ [.text py!"/submodel-refs"]) .submodelRefs]
  else if e.1 ∈ [py!"GetAllSubmodels", py!"GetAllSubmodels-Metadata", py!"GetAllSubmodels-ValueOnly", py!"GetAllSubmodels-Reference", py!"GetAllSubmodels-Path"] then
    [cursorAsk [.text py!"/submodels"] .submodels]
  else if e.1 ∈ [py!"GetSubmodelById", py!"GetSubmodelById-Metadata", py!"GetSubmodelById-ValueOnly", py!"GetSubmodelById-Reference", py!"GetSubmodelById-Path"] then
    if base = [] then [firstEntry [.text py!"/submodels"] .submodels] else [firstEntry (base ++ [.text py!"/submodel-refs"]) .submodelRefs]
  else if e.1 = py!"GetAllSubmodelElements" then [cursorAsk (base ++ [.text py!"/submodel-elements"]) .elements]
  else if e.1 = py!"GetAllSubmodelElements-Metadata" then [cursorAsk (base ++ [.text py!"/submodel-elements/$metadata"]) .elements]
  else if e.1 = py!"GetAllSubmodelElements-ValueOnly" then [cursorAsk (base ++ [.text py!"/submodel-elements/$value"]) .elementValues]
  else if e.1 = py!"GetAllSubmodelElements-Path" then [cursorAsk (base ++ [.text py!"/submodel-elements/$path"]) .elementPaths]
  else if e.1 ∈ [py!"GetSubmodelElementByPath", py!"GetSubmodelElementByPath-Metadata", py!"GetSubmodelElementByPath-ValueOnly",
      py!"GetSubmodelElementByPath-Reference", py!"GetSubmodelElementByPath-Path", py!"GetFileByPath"] then
    [elementsAsk (base ++ [.text py!"/submodel-elements"])]
  else if e.1 = py!"GenerateSerializationByIds" then
    [firstEntry (besideSerialization e.2) .shells (fun x ids => ids = [] ∧ ∃ s, FirstSubmodel x s) noSubmodels]
  else []

/-- the requests of the setup of an operation -/
def plan (e : Str × List Seg) : List Ask := (baseOf e.2).2 ++ ownAsks (baseOf e.2).1 e

end Verif.Spec.Suites
