import Verif.Props.Requests

/-!
# C103: the number of requests is reached

In a file of its own, as the kernel runs the whole program for the check of a submodel: 360 requests.
-/

namespace Verif.Props
open Verif Verif.Spec Verif.Parse Verif.Aas Verif.Http Verif.Generate Verif.Api Verif.Api.Suites Verif.Spec.Requests Verif.Spec.Api

/-- an element with these further attributes -/
def anElement (ty name : Str) (more : List (Str × Json) := []) : Json := .obj ([(py!"modelType", .str ty), (py!"idShort", .str name)] ++ more)

/-- an element of each type -/
def allElements : List Json :=
  let ref := elementRef
  let relation : List (Str × Json) := [(py!"first", ref), (py!"second", ref)]
  [anElement py!"SubmodelElementCollection" py!"a" [(py!"value", .arr [propertyJson])],
   anElement py!"SubmodelElementList" py!"b" [(py!"typeValueListElement", .str py!"Capability"), (py!"value", .arr [.obj [(py!"modelType", .str py!"Capability")]])],
   anElement py!"Entity" py!"c" [(py!"entityType", .str py!"CoManagedEntity")],
   anElement py!"BasicEventElement" py!"d" [(py!"observed", ref), (py!"direction", .str py!"input"), (py!"state", .str py!"on")],
   anElement py!"Capability" py!"e", anElement py!"Operation" py!"f", anElement py!"MultiLanguageProperty" py!"g",
   anElement py!"Range" py!"h" [(py!"valueType", .str py!"xs:int")], anElement py!"ReferenceElement" py!"i",
   anElement py!"RelationshipElement" py!"j" relation, anElement py!"AnnotatedRelationshipElement" py!"k" relation,
   anElement py!"Blob" py!"l" [(py!"contentType", .str py!"a/b")], anElement py!"File" py!"m" [(py!"contentType", .str py!"a/b")]]

/-- a server with these elements -/
def richServer : List (Str × Json) :=
  [py!"/shells/*/submodels/*", py!"/submodels/*", py!"/aas/submodels/*", py!"/submodel"].map fun base =>
    (base ++ py!"/submodel-elements", pageJson allElements)

/-- C103, the numbers can not be smaller: a server with an element of each type gets exactly so many requests when its submodel service is checked. -/
theorem C103_reached : (runOf richServer 3).2.length = most (service 3) := by decide +kernel

end Verif.Props
