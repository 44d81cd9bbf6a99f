import Verif.Spec.Flaws
import Verif.Spec.Places
import Verif.Telling

/-!
# What the lines about a submodel with a template say

A line about an element is a text with the place of the element behind ` @ `. Places are written as the names of fields, and positions for fields with
more than one element. Lines about wrong numbers of elements have no place. The lines follow the order of the fields and the elements.
-/

namespace Verif.Spec.Templates
open Verif Verif.Parse Verif.Aas Verif.Templates Verif.Spec.Model Verif.Spec

/-- a number in digits without leading zeros -/
def Decimal (n : Nat) (t : Str) : Prop := Numeral t ∧ decimalValue t = n ∧ (t.head? = some (pc! '0') → t = py!"0")

/-- The element `y` stands for a field of type `ty` at the place `p`, which consists of names of fields and of positions. The numbers of the fields
in their classes and the positions make up the rank `s`: elements are ordered by their ranks, like words in a dictionary. -/
inductive At : TCls → List AVal → List Nat → List Str → TTy → AVal → Prop
  | single {c els k f y} : (tfieldsOf c)[k]? = some f → Within f (matching f els).length → f.max = some 1 → y ∈ matching f els →
      At c els [k, 0] [fieldName f] f.ty y
  | item {c els k f i t y} : (tfieldsOf c)[k]? = some f → Within f (matching f els).length → f.max ≠ some 1 → (matching f els)[i]? = some y →
      Decimal i t → At c els [k, i] [fieldName f, t] f.ty y
  | deeper {c els s p d x s' q ty y} : At c els s p (.cls d) x → Collection true x → At d (elems x .value) s' q ty y → At c els (s ++ s') (p ++ q) ty y

/-- the collections of a submodel, with the elements of the submodel itself -/
def Inside (c : TCls) (els : List AVal) (s : List Nat) (d : TCls) (ys : List AVal) : Prop :=
  (s = [] ∧ d = c ∧ ys = els) ∨ ∃ p x, At c els s p (.cls d) x ∧ Collection true x ∧ ys = elems x .value

/-- what kind of value is expected, and its data type -/
inductive Value : TTy → Str → Str → Prop
  | str : Value .str py!"string" py!"xs:string"
  | date : Value .date py!"date" py!"xs:date"
  | enum (e) : Value (.enum e) py!"string" py!"xs:string"

section
variable (W : Words)

/-- what is wrong with an element, in words; the flag tells that this is a value outside of its enumeration -/
inductive Wrong : Bool → TTy → AVal → Str → Prop
  | noProperty {ty s t x} : Value ty s t → className x ≠ py!"Property" → Wrong false ty x (py!"Cannot convert to " ++ s ++ py!": must be a Property")
  | noValue {ty s t x} : Value ty s t → className x = py!"Property" → ¬ Set x .value → Wrong false ty x (py!"Cannot convert to " ++ s ++ py!": no value")
  | valueType {ty s t x} : Value ty s t → className x = py!"Property" → Set x .value → txt x .valueType ≠ t →
      Wrong false ty x (py!"Cannot convert '" ++ txt x .value ++ py!"' to " ++ s ++ py!": valueType must be " ++ t)
  | notInEnum {e x} : PropertyOf py!"xs:string" x → txt x .value ∉ tenumValues e →
      Wrong true (.enum e) x (W.repr (txt x .value) ++ py!" is not a valid " ++ e.pyName)
  | noLang {x} : className x ≠ py!"MultiLanguageProperty" → Wrong false .lang x py!"Cannot convert to lang string: not a MultiLanguageProperty"
  | noText {x} : className x = py!"MultiLanguageProperty" → ¬ Set x .value → Wrong false .lang x py!"Cannot convert to lang string: no value"
  | noElements {c x} : HasAttr x .value → ¬ Set x .value → Wrong false (.cls c) x py!"No elements"

/-- a wrong number of elements for a field, in words -/
inductive WrongNumber (f : TField) (n : Nat) : Str → Prop
  | tooMany {m s t} : f.max = some m → m < n → Decimal n s → Decimal m t → WrongNumber f n
      (py!"Field " ++ fieldName f ++ py!": found " ++ s ++ py!" elements with semanticId " ++ f.semanticId ++ py!", but at most " ++ t ++ py!" allowed")
  | tooFew {s t} : n < f.min → Decimal n s → Decimal f.min t → WrongNumber f n
      (py!"Field " ++ fieldName f ++ py!": found " ++ s ++ py!" elements with semanticId " ++ f.semanticId ++ py!", but at least " ++ t ++ py!" required")

/-- the mistakes of the elements of a submodel, with their ranks and the lines about them -/
inductive LineOf (c : TCls) (els : List AVal) : Bool → List Nat × Str → Prop
  | element {b s p ty y w} : At c els s p ty y → Wrong W b ty y w → LineOf c els b (s, w ++ py!" @ /" ++ Py.join py!"/" p)
  | number {s d ys k f t} : Inside c els s d ys → (tfieldsOf d)[k]? = some f → WrongNumber f (matching f ys).length t → LineOf c els false (s ++ [k], t)

/-- Which mistakes are reported: the first one, and all other ones but those of values outside of an enumeration; in their order. -/
def Listed (L : Bool → List Nat × Str → Prop) (ms : List (List Nat × Str)) : Prop :=
  ms.Pairwise (fun m m' => m.1 < m'.1) ∧
    match ms with
    | [] => ∀ b m, ¬ L b m
    | first :: rest => (∃ b, L b first) ∧ (∀ b m, L b m → first.1 ≤ m.1) ∧ (∀ m ∈ rest, L false m) ∧ ∀ m, L false m → m ∈ first :: rest

/-- the report on a submodel: its id, its template, and a line for each mistake; for a nameplate without mistakes, that the product family or type is missing -/
def SubmodelTold (c : TCls) (sid : Str) (sm : AVal) (sub : Res Str) : Prop :=
  ∃ ms extra, Listed (LineOf W c (elems sm .submodelElements)) ms ∧
    ((ms = [] ∧ c = .digitalNameplate ∧ ¬ FamilyOrType (elems sm .submodelElements) ∧
        extra = [py!"Either ManufacturerProductFamily or ManufacturerProductType is required @ /"]) ∨
      (¬ (ms = [] ∧ c = .digitalNameplate ∧ ¬ FamilyOrType (elems sm .submodelElements)) ∧ extra = [])) ∧
    sub = ((Res.new (py!"Check submodel '" ++ txt sm .id ++ py!"'")).append (Res.new (py!"Template: " ++ c.pyName ++ py!" (" ++ sid ++ py!")"))).appendAll
      ((ms.map (·.2) ++ extra).map fun t => Res.new t .error)

end
end Verif.Spec.Templates
