import Verif.Spec.Xml

/-!
# Which XML elements are accepted, exactly

`XDescribes` (Spec/Xml.lean) says what the format demands, and bounds what is tolerated. This is the line in between, where the checker draws it.
-/

namespace Verif.Spec.Parse
open Verif Verif.Parse

/-- where the content of an object is: if the name of the element ends with `dataSpecificationContent` in its only child element, otherwise in
the element itself -/
def Content (x d : Xml) : Prop :=
  (py!"dataSpecificationContent" <:+ x.tag ∧ x.children = [d]) ∨ (¬ py!"dataSpecificationContent" <:+ x.tag ∧ d = x)

/-- the child element is the `value` of something called like an operation variable -/
def IsOpValue (d y : Xml) : Prop := Called d py!"OperationVariable" ∧ y.tag = xmlns ++ py!"value"

/-- where the value of an attribute is: in the only child element of the `value` of operation variables, otherwise in the element itself -/
def Inside (d y z : Xml) : Prop := (IsOpValue d y ∧ y.children = [z]) ∨ (¬ IsOpValue d y ∧ z = y)

section
variable {C E S F : Type}

/-- The element is accepted for the value.

* a text, boolean, enumeration value or formatted string: no child elements, or the first one has none; booleans are true iff the text is `true`
* lists: any text
* objects: the element is in the namespace, and has no text
* their content is called like the class, if the type is abstract or the class demands a model type; otherwise it can have any name, but none at all
  only if there are no attributes
* all child elements are attributes of the class; of several with the same name the last one counts -/
inductive XAccepts (sc : Schema C E S F) : Ty C E S → Xml → Val C E S F → Prop
  | str {x} : TextOnly true x → XAccepts sc .str x (.str (x.text.getD []))
  | bool {x b} : TextOnly true x → (b = true ↔ x.text = some py!"true") → XAccepts sc .bool x (.bool b)
  | any {x} : XAccepts sc .any x .foreign
  | enum {x e s} : TextOnly true x → s = x.text.getD [] → s ∈ sc.enumValues e → XAccepts sc (.enum e) x (.enum e s)
  | sfv {x c s} : TextOnly true x → s = x.text.getD [] → sc.construct c s = .ok () → XAccepts sc (.sfv c) x (.sfv c s)
  | list {it ae x vs} (nonempty : vs ≠ [] ∨ ae = true) (length : x.children.length = vs.length)
      (items : ∀ (i : Nat) (y : Xml) (v : Val C E S F), x.children[i]? = some y → vs[i]? = some v → XAccepts sc it y v) :
      XAccepts sc (.list it ae) x (.list vs)
  | obj {c c' x d attrs} (isA : IsA sc c c') (inNamespace : xmlns <+: x.tag) (text : NoText x) (content : Content x d)
      (called : sc.abstract c = true ∨ sc.needsModelType c' = true → Called d (sc.className c'))
      (named : d.children = [] ∨ xmlns.length < d.tag.length)
      (known : ∀ y ∈ d.children, ∃ key ∈ allKeys (sc.fields c'), y.tag = xmlns ++ key)
      (single : ∀ y ∈ d.children, IsOpValue d y → ∃ z, y.children = [z])
      (names : attrs.map (·.1) = (sc.fields c').map (·.name))
      (present : ∀ f key ty req v pre y post z, (Field.mk f (.attr key ty req), f, v) ∈ (sc.fields c').zip attrs →
        d.children = pre ++ y :: post → y.tag = xmlns ++ key → (∀ u ∈ post, u.tag ≠ xmlns ++ key) → Inside d y z → XAccepts sc ty z v)
      (absent : ∀ f key ty req v, (Field.mk f (.attr key ty req), f, v) ∈ (sc.fields c').zip attrs →
        (∀ y ∈ d.children, y.tag ≠ xmlns ++ key) → req = false ∧ v = .none)
      (excluded : ∀ f v, (Field.mk f .excluded, f, v) ∈ (sc.fields c').zip attrs → v = .none) :
      XAccepts sc (.cls c) x (.obj c' attrs)

end
end Verif.Spec.Parse
