import Verif.Responses
import Verif.Spec.Parse

/-!
# The bodies of responses, in terms of JSON

What the classes declared in `interfaces/*.py` demand. A member `modelType` is tolerated in all objects.
-/

namespace Verif.Spec.Bodies
open Verif Verif.Parse Verif.Aas Verif.Spec.Parse Verif.Api

/-- a member of an object: its name, whether it is required, its form -/
structure Member where
  name : Str
  required : Bool
  form : Json → Prop

/-- an object with these members and no others -/
def Object (ms : List Member) (j : Json) : Prop :=
  ∃ kvs, j = .obj kvs ∧ (∀ e ∈ kvs, e.1 = py!"modelType" ∨ ∃ m ∈ ms, m.name = e.1) ∧
    (∀ m ∈ ms, m.required = true → ∃ v, (m.name, v) ∈ kvs) ∧ ∀ m ∈ ms, ∀ v, (m.name, v) ∈ kvs → m.form v

def Text (j : Json) : Prop := ∃ s, j = .str s
def OneOf (values : List Str) (j : Json) : Prop := ∃ s ∈ values, j = .str s
def ListOf (P : Json → Prop) (j : Json) : Prop := ∃ l, j = .arr l ∧ ∀ x ∈ l, P x

/-- a message of a server -/
def Message : Json → Prop :=
  Object [⟨py!"code", false, Text⟩, ⟨py!"correlationId", false, Text⟩,
    ⟨py!"messageType", false, OneOf [py!"Undefined", py!"Info", py!"Warning", py!"Error", py!"Exception"]⟩, ⟨py!"text", false, Text⟩,
    ⟨py!"timestamp", false, Text⟩]

/-- an error result -/
def ErrorResult : Json → Prop := Object [⟨py!"messages", false, ListOf Message⟩]

/-- the description of a server -/
def Description : Json → Prop := Object [⟨py!"profiles", true, ListOf Text⟩]

/-- an object of the meta-model -/
def Instance (lim : Option Nat) (c : Cls) : Json → Prop := Conforms (schema lim) (.cls c)

/-- a reference that need not satisfy the rules for references -/
inductive LooseReference (lim : Option Nat) : Json → Prop
  | mk {kvs : List (Str × Json)} :
      (∀ e ∈ kvs, e.1 ∈ [py!"modelType", py!"type", py!"referredSemanticId", py!"keys"]) →
      (∃ s ∈ [py!"ExternalReference", py!"ModelReference"], (py!"type", Json.str s) ∈ kvs) →
      (∀ v, (py!"type", v) ∈ kvs → OneOf [py!"ExternalReference", py!"ModelReference"] v) →
      (∀ v, (py!"referredSemanticId", v) ∈ kvs → LooseReference lim v) →
      (∃ v, (py!"keys", v) ∈ kvs) → (∀ v, (py!"keys", v) ∈ kvs → ListOf (Instance lim .key) v) → LooseReference lim (.obj kvs)

/-- the entries of pages -/
def entryForm (lim : Option Nat) : Page → Json → Prop
  | .shells => Instance lim .assetAdministrationShell
  | .shellRefs | .submodelRefs => Instance lim .reference
  | .submodels => Instance lim .submodel
  | .elements => Instance lim .submodelElement
  | .elementRefs => LooseReference lim
  | .submodelPaths | .elementPaths => Text
  | .submodelValues | .elementValues => fun _ => True

/-- the entries of pages that count as such, given the documents that are accepted -/
def entryOk (lim : Option Nat) (Accepted : Cls → Json → Prop) : Page → Json → Prop
  | .shells => Accepted .assetAdministrationShell
  | .shellRefs | .submodelRefs => Accepted .reference
  | .submodels => Accepted .submodel
  | .elements => Accepted .submodelElement
  | p => entryForm lim p

/-- a page: its entries, and the cursor of the next page -/
def PageOf (entry : Json → Prop) : Json → Prop :=
  Object [⟨py!"paging_metadata", true, Object [⟨py!"cursor", false, Text⟩]⟩, ⟨py!"result", true, ListOf entry⟩]

end Verif.Spec.Bodies
