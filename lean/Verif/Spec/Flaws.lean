import Verif.Spec.Templates

/-!
# The mistakes of a submodel with a template

What is wrong with an element, at which place, and how the report names it.
-/

namespace Verif.Spec.Templates
open Verif Verif.Parse Verif.Aas Verif.Templates Verif.Spec.Model Verif.Spec

/-- the words of a name, which are separated by underscores -/
def wordsOf : Str → List Str
  | [] => [[]]
  | c :: s =>
    if c = pc! '_' then [] :: wordsOf s
    else match wordsOf s with
      | [] => [[c]]
      | w :: ws => (c :: w) :: ws

/-- a word in small letters with its first letter as capital -/
def capital : Str → Str
  | [] => []
  | c :: s => (if 97 ≤ c ∧ c ≤ 122 then c - 32 else c) :: s

/-- the name of a field in reports: `product_family` is `ProductFamily` -/
def fieldName (f : TField) : Str := ((wordsOf f.name).map capital).flatten

/-- the data type of the properties that hold a value -/
inductive Holds : TTy → Str → Prop
  | str : Holds .str py!"xs:string"
  | date : Holds .date py!"xs:date"
  | enum (e) : Holds (.enum e) py!"xs:string"

/-- `Flaw b ty x p n`: something is wrong with the element `x` at the path `p`, and it is named by the note `n`; `b` tells that this is a value
outside of its enumeration. -/
inductive Flaw : Bool → TTy → AVal → List PTok → Note → Prop
  | noProperty {ty t x p} : Holds ty t → className x ≠ py!"Property" → Flaw false ty x p ⟨.other py!"must be a Property", p⟩
  | noValue {ty t x p} : Holds ty t → className x = py!"Property" → ¬ Set x .value → Flaw false ty x p ⟨.other py!"no value", p⟩
  | valueType {ty t x p} : Holds ty t → className x = py!"Property" → Set x .value → txt x .valueType ≠ t →
      Flaw false ty x p ⟨.other (py!"valueType must be " ++ t), p⟩
  | notInEnum {e x p} : PropertyOf py!"xs:string" x → txt x .value ∉ tenumValues e → Flaw true (.enum e) x p ⟨.notInEnum, p⟩
  | noLang {x p} : className x ≠ py!"MultiLanguageProperty" → Flaw false .lang x p ⟨.other py!"not a MultiLanguageProperty", p⟩
  | noText {x p} : className x = py!"MultiLanguageProperty" → ¬ Set x .value → Flaw false .lang x p ⟨.other py!"no value", p⟩
  | noElements {c x p} : HasAttr x .value → ¬ Set x .value → Flaw false (.cls c) x p ⟨.other py!"No elements", p⟩
  | tooMany {c x p f m} : Collection true x → f ∈ tfieldsOf c → f.max = some m → m < (matching f (elems x .value)).length →
      Flaw false (.cls c) x p ⟨.other (py!"too many elements: " ++ fieldName f), []⟩
  | tooFew {c x p f} : Collection true x → f ∈ tfieldsOf c → (matching f (elems x .value)).length < f.min →
      Flaw false (.cls c) x p ⟨.other (py!"too few elements: " ++ fieldName f), []⟩
  | single {b c x p f y n} : Collection true x → f ∈ tfieldsOf c → Within f (matching f (elems x .value)).length → f.max = some 1 →
      y ∈ matching f (elems x .value) → Flaw b f.ty y (p ++ [.key (fieldName f)]) n → Flaw b (.cls c) x p n
  | item {b c x p f i y n} : Collection true x → f ∈ tfieldsOf c → Within f (matching f (elems x .value)).length → f.max ≠ some 1 →
      (matching f (elems x .value))[i]? = some y → Flaw b f.ty y (p ++ [.key (fieldName f), .idx i]) n → Flaw b (.cls c) x p n

/-- the mistakes of the elements of a submodel -/
inductive FlawOf (c : TCls) (els : List AVal) : Bool → Note → Prop
  | tooMany {f m} : f ∈ tfieldsOf c → f.max = some m → m < (matching f els).length →
      FlawOf c els false ⟨.other (py!"too many elements: " ++ fieldName f), []⟩
  | tooFew {f} : f ∈ tfieldsOf c → (matching f els).length < f.min → FlawOf c els false ⟨.other (py!"too few elements: " ++ fieldName f), []⟩
  | single {b f y n} : f ∈ tfieldsOf c → Within f (matching f els).length → f.max = some 1 →
      y ∈ matching f els → Flaw b f.ty y [.key (fieldName f)] n → FlawOf c els b n
  | item {b f i y n} : f ∈ tfieldsOf c → Within f (matching f els).length → f.max ≠ some 1 →
      (matching f els)[i]? = some y → Flaw b f.ty y [.key (fieldName f), .idx i] n → FlawOf c els b n

/-- Which mistakes are reported: all but those of values outside of an enumeration, of which one is reported if it comes before everything else.
Nothing else is reported. -/
def Reported (L : Bool → Note → Prop) : List Note → Prop
  | [] => ∀ b n, ¬ L b n
  | first :: rest => (∃ b, L b first) ∧ (∀ n ∈ rest, L false n) ∧ ∀ n, L false n → n ∈ first :: rest

/-- the constraint of the nameplate -/
def familyText : Str := py!"Either ManufacturerProductFamily or ManufacturerProductType is required"

/-- what is reported after the mistakes of the elements: if there are none, that neither the product family nor the type is given -/
inductive Extra (c : TCls) (els : List AVal) : List Note → List Note → Prop
  | family : c = .digitalNameplate → ¬ FamilyOrType els → Extra c els [] [⟨.constraint familyText, []⟩]
  | kept {notes} : (notes = [] → c = .digitalNameplate → FamilyOrType els) → Extra c els notes []

/-- the result for one submodel: a line with the template, then one error for each reported mistake -/
def SubmodelReport (c : TCls) (sm : AVal) (sub : Res Note) : Prop :=
  ∃ notes extra, Reported (FlawOf c (elems sm .submodelElements)) notes ∧ Extra c (elems sm .submodelElements) notes extra ∧
    sub = ((Res.new ⟨.title py!"Check submodel", []⟩).append (Res.new ⟨.title (py!"Template: " ++ c.pyName), []⟩)).appendAll
      ((notes ++ extra).map fun n => Res.new n .error)

end Verif.Spec.Templates
