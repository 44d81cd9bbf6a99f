import Verif.TemplateTable
import Verif.Spec.Model

/-!
# What it means that a submodel follows a template

A template (`TemplateTable.lean`) is a table: fields with semantic id, cardinality and kind of value.
-/

namespace Verif.Spec.Templates
open Verif Verif.Parse Verif.Aas Verif.Templates Verif.Spec.Model Verif.Spec

/-- the semantic id of an element: the value of the first key of the reference -/
def semanticId? (x : AVal) : Option Str := (elems (get x .semanticId) .keys).head?.map (txt · .value)

/-- the elements with the semantic id of a field -/
def matching (f : TField) (els : List AVal) : List AVal := els.filter fun x => decide (semanticId? x = some f.semanticId)

/-- the number is within the cardinality -/
def Within (f : TField) (n : Nat) : Prop := f.min ≤ n ∧ ∀ m, f.max = some m → n ≤ m

/-- an element with a value of a data type -/
def PropertyOf (type : Str) (x : AVal) : Prop := className x = py!"Property" ∧ Set x .value ∧ txt x .valueType = type

/-- A collection. `lax`: as checked by the code, which takes lists of elements for collections but does not accept empty collections. -/
def Collection (lax : Bool) (x : AVal) : Prop :=
  (className x = py!"SubmodelElementCollection" ∨ (lax = true ∧ className x = py!"SubmodelElementList")) ∧ (lax = true → Set x .value)

/-- the element has the right kind of value; for collections, recursively -/
inductive Fits (lax : Bool) : TTy → AVal → Prop
  | str {x} : PropertyOf py!"xs:string" x → Fits lax .str x
  | date {x} : PropertyOf py!"xs:date" x → Fits lax .date x
  | lang {x} : className x = py!"MultiLanguageProperty" → Set x .value → Fits lax .lang x
  | enum {e x} : PropertyOf py!"xs:string" x → txt x .value ∈ tenumValues e → Fits lax (.enum e) x
  | cls {c x} : Collection lax x → (∀ f ∈ tfieldsOf c, Within f (matching f (elems x .value)).length) →
      (∀ f ∈ tfieldsOf c, ∀ y ∈ matching f (elems x .value), Fits lax f.ty y) → Fits lax (.cls c) x

/-- the elements follow the template -/
def FitsAll (lax : Bool) (c : TCls) (els : List AVal) : Prop :=
  ∀ f ∈ tfieldsOf c, Within f (matching f els).length ∧ ∀ y ∈ matching f els, Fits lax f.ty y

/-- the rule of the digital nameplate: family or type is given -/
def FamilyOrType (els : List AVal) : Prop :=
  ∃ x ∈ els, semanticId? x = some py!"0173-1#02-AAU731#001" ∨ semanticId? x = some py!"0173-1#02-AAO057#002"

/-- the submodel follows the template `c` -/
def Follows (lax : Bool) (c : TCls) (sm : AVal) : Prop :=
  FitsAll lax c (elems sm .submodelElements) ∧ (c = .digitalNameplate → FamilyOrType (elems sm .submodelElements))

/-- a date in the format YYYY-MM-DD, from year 1 on -/
def IsoDate (s : Str) : Prop :=
  ∃ ys ms ds y m d, s = ys ++ pc! '-' :: ms ++ pc! '-' :: ds ∧ Numeral ys ∧ ys.length = 4 ∧ decimalValue ys = y ∧ TwoDigit ms m ∧ TwoDigit ds d ∧
    DateExists y m d

/-- the object has an attribute, set or not -/
def HasAttr (x : AVal) (f : Fld) : Prop :=
  match x with
  | .obj _ attrs => f ∈ attrs.map (·.1)
  | _ => False

/-- on these elements the check raises an exception: dates in other formats than YYYY-MM-DD, and elements of other classes in place of
collections -/
inductive Raises : TTy → AVal → Prop
  | date {x} : PropertyOf py!"xs:date" x → ¬ IsoDate (txt x .value) → Raises .date x
  | noCollection {c x} : className x ≠ py!"SubmodelElementCollection" → className x ≠ py!"SubmodelElementList" →
      (Set x .value ∨ ¬ HasAttr x .value) → Raises (.cls c) x
  | deeper {c x f y} : Collection true x → f ∈ tfieldsOf c → Within f (matching f (elems x .value)).length →
      y ∈ matching f (elems x .value) → Raises f.ty y → Raises (.cls c) x

/-- … submodels without elements, too -/
inductive RaisesSubmodel (c : TCls) (sm : AVal) : Prop
  | empty : ¬ Set sm .submodelElements → RaisesSubmodel c sm
  | deeper {f y} : f ∈ tfieldsOf c → Within f (matching f (elems sm .submodelElements)).length →
      y ∈ matching f (elems sm .submodelElements) → Raises f.ty y → RaisesSubmodel c sm

/-- the submodels of a supported template, with the template -/
def templated (sms : List AVal) : List (AVal × TCls) :=
  sms.filterMap fun sm => (semanticId? sm).bind fun sid => (templates.find? fun t => decide (t.1 = sid)).map fun t => (sm, t.2)

end Verif.Spec.Templates
