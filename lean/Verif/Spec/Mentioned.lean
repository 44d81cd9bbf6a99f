import Verif.Spec.Templates

/-!
# What a template looks at

Two submodels are the same for a template if they have the same elements for each of its fields, in order. Of elements with a text only the class, the
text and its data type count, of texts in several languages only whether there are some, and of collections only the elements for the fields of their own
template.
-/

namespace Verif.Spec.Templates
open Verif Verif.Parse Verif.Aas Verif.Templates Verif.Spec.Model Verif.Spec

/-- the same text: both are properties, or none of them -/
def SameText (x y : AVal) : Prop :=
  (className x = py!"Property" ↔ className y = py!"Property") ∧
  (className x = py!"Property" → (Set x .value ↔ Set y .value) ∧ txt x .value = txt y .value ∧ txt x .valueType = txt y .valueType)

/-- the same for a field of this type -/
inductive SameFor : TTy → AVal → AVal → Prop
  | str {x y} : SameText x y → SameFor .str x y
  | date {x y} : SameText x y → SameFor .date x y
  | enum {e x y} : SameText x y → SameFor (.enum e) x y
  | lang {x y} : (className x = py!"MultiLanguageProperty" ↔ className y = py!"MultiLanguageProperty") →
      (className x = py!"MultiLanguageProperty" → (Set x .value ↔ Set y .value)) → SameFor .lang x y
  | cls {c x y} : className x = className y → (Set x .value ↔ Set y .value) →
      (∀ f ∈ tfieldsOf c, (matching f (elems x .value)).length = (matching f (elems y .value)).length) →
      (∀ f ∈ tfieldsOf c, ∀ p ∈ (matching f (elems x .value)).zip (matching f (elems y .value)), SameFor f.ty p.1 p.2) → SameFor (.cls c) x y

/-- the same elements for each field -/
def SameElements (c : TCls) (els els' : List AVal) : Prop :=
  ∀ f ∈ tfieldsOf c, (matching f els).length = (matching f els').length ∧ ∀ p ∈ (matching f els).zip (matching f els'), SameFor f.ty p.1 p.2

/-- the same submodel for a template -/
structure SameSubmodel (c : TCls) (x y : AVal) : Prop where
  semanticId : semanticId? x = semanticId? y
  id : txt x .id = txt y .id
  elements : Set x .submodelElements ↔ Set y .submodelElements
  same : SameElements c (elems x .submodelElements) (elems y .submodelElements)

end Verif.Spec.Templates
