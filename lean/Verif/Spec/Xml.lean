import Verif.Spec.Parse

/-!
# Which XML elements describe which values

Independent of the adapter. `lax = false` is what the XML format of the meta-model demands; the conditions that follow `lax = true` are
deviations that are tolerated in addition.
-/

namespace Verif.Spec.Parse
open Verif Verif.Parse

/-- the namespace of the meta-model, in the notation of `ElementTree` -/
def xmlns : Str := py!"{https://admin-shell.io/aas/3/0}"

/-- `SubmodelElementList` -> `submodelElementList` -/
def lowerFirst : Str → Str
  | [] => []
  | c :: s => (if 65 ≤ c ∧ c ≤ 90 then c + 32 else c) :: s

/-- no text besides white space -/
def NoText (x : Xml) : Prop := ∀ s, x.text = some s → ∀ c ∈ s, Py.isSpace c = true

/-- an element with a text; tolerated: child elements, if the first one is empty -/
def TextOnly (lax : Bool) (x : Xml) : Prop := x.children = [] ∨ (lax = true ∧ ∃ y ys, x.children = y :: ys ∧ y.children = [])

/-- an element with a boolean; tolerated: all other texts as `false` -/
def BoolText (lax : Bool) (t : Option Str) (b : Bool) : Prop :=
  (t = some py!"true" ∧ b = true) ∨ (t = some py!"false" ∧ b = false) ∨ (lax = true ∧ t ≠ some py!"true" ∧ b = false)

/-- the element is called like the class; tolerated besides: an upper-case first letter, and two other letters whose upper case is one -/
def Called (x : Xml) (name : Str) : Prop :=
  ∃ t, x.tag.drop xmlns.length = t ∧ (t = lowerFirst name ∨ t = name ∨ (∃ s, name = pc! 'I' :: s ∧ t = 0x131 :: s) ∨
    (∃ s, name = pc! 'S' :: s ∧ t = 0x17f :: s))

/-- every element has a name besides the namespace -/
inductive Named : Xml → Prop
  | mk {x} : xmlns.length < x.tag.length → (∀ y ∈ x.children, Named y) → Named x

/-- where an element occurs: as attribute, in a list (or as document), or in `dataSpecificationContent` -/
inductive Pos
  | attr
  | item
  | inner
  deriving DecidableEq

section
variable {C E S F : Type}

/-- The element describes the value.

* texts and booleans are the text of the element
* list elements are the child elements, called like their class
* the attributes of an object are the child elements, called like the attributes, each at most once
* where the type of an attribute is abstract, the element contains a single element that is called like the class

Tolerated (`lax`):

* text in elements for lists, before the object in the `value` of operation variables, before the attributes of objects in
  `dataSpecificationContent`
* elements of lists of concrete types can have any name, unless the class demands a model type
* objects in `dataSpecificationContent` can have any namespace
* repeated attributes: the last one counts
* list elements whose name ends with `dataSpecificationContent`, and attributes called `value`, with one more element around the content -/
inductive XDescribes (sc : Schema C E S F) (lax : Bool) : Pos → Ty C E S → Xml → Val C E S F → Prop
  | str {pos x} : TextOnly lax x → XDescribes sc lax pos .str x (.str (x.text.getD []))
  | bool {pos x b} : TextOnly lax x → BoolText lax x.text b → XDescribes sc lax pos .bool x (.bool b)
  | any {pos x} : XDescribes sc lax pos .any x .foreign
  | enum {pos x e s} : TextOnly lax x → s = x.text.getD [] → s ∈ sc.enumValues e → XDescribes sc lax pos (.enum e) x (.enum e s)
  | sfv {pos x c s} : TextOnly lax x → s = x.text.getD [] → sc.construct c s = .ok () → XDescribes sc lax pos (.sfv c) x (.sfv c s)
  | list {pos it ae x vs} (text : lax = true ∨ NoText x) (nonempty : vs ≠ [] ∨ ae = true) (length : x.children.length = vs.length)
      (items : ∀ (i : Nat) (y : Xml) (v : Val C E S F), x.children[i]? = some y → vs[i]? = some v → XDescribes sc lax .item it y v) :
      XDescribes sc lax pos (.list it ae) x (.list vs)
  | obj {pos c c' x attrs} (isA : IsA sc c c')
      (position : pos = .attr → sc.abstract c = false ∧ sc.needsModelType c' = false)
      (called : pos ≠ .attr → x.tag = xmlns ++ lowerFirst (sc.className c') ∨
        (lax = true ∧ (pos = .item → xmlns <+: x.tag) ∧ (sc.abstract c = true ∨ sc.needsModelType c' = true → Called x (sc.className c'))))
      (text : NoText x ∨ (lax = true ∧ pos = .inner))
      (known : ∀ y ∈ x.children, ∃ key ∈ allKeys (sc.fields c'), y.tag = xmlns ++ key)
      (once : lax = true ∨ (x.children.map Xml.tag).Nodup)
      (names : attrs.map (·.1) = (sc.fields c').map (·.name))
      (present : ∀ f key ty req v pre y post, (Field.mk f (.attr key ty req), f, v) ∈ (sc.fields c').zip attrs →
        x.children = pre ++ y :: post → y.tag = xmlns ++ key → (∀ z ∈ post, z.tag ≠ xmlns ++ key) → XDescribes sc lax .attr ty y v)
      (absent : ∀ f key ty req v, (Field.mk f (.attr key ty req), f, v) ∈ (sc.fields c').zip attrs →
        (∀ y ∈ x.children, y.tag ≠ xmlns ++ key) → req = false ∧ v = .none)
      (excluded : ∀ f v, (Field.mk f .excluded, f, v) ∈ (sc.fields c').zip attrs → v = .none) :
      XDescribes sc lax pos (.cls c) x (.obj c' attrs)
  | wrapped {c x y v} (abs : sc.abstract c = true) (name : py!"dataSpecificationContent" <:+ x.tag) (text : NoText x)
      (child : x.children = [y]) (content : XDescribes sc lax .inner (.cls c) y v) : XDescribes sc lax .attr (.cls c) x v
  | value {c x y v} (abs : sc.abstract c = true) (name : x.tag = xmlns ++ py!"value") (text : NoText x ∨ lax = true)
      (child : x.children = [y]) (content : XDescribes sc lax .item (.cls c) y v) : XDescribes sc lax .attr (.cls c) x v
  | wrappedItem {c x y v} (tolerated : lax = true) (name : py!"dataSpecificationContent" <:+ x.tag) (text : NoText x)
      (child : x.children = [y]) (content : XDescribes sc lax .inner (.cls c) y v) : XDescribes sc lax .item (.cls c) x v
  | wrappedValue {ty x y v} (tolerated : lax = true) (name : x.tag = xmlns ++ py!"value") (child : x.children = [y])
      (content : XDescribes sc lax .item ty y v) : XDescribes sc lax .attr ty x v

/-- the name of an element in a list -/
def itemTag (sc : Schema C E S F) : Val C E S F → Str
  | .obj c _ => lowerFirst (sc.className c)
  | _ => py!"item"

mutual
/-- serialisation -/
def toXml (sc : Schema C E S F) (tag : Str) : Val C E S F → Xml
  | .str s => .elem (xmlns ++ tag) (some s) []
  | .bool b => .elem (xmlns ++ tag) (some (if b then py!"true" else py!"false")) []
  | .enum _ s => .elem (xmlns ++ tag) (some s) []
  | .sfv _ s => .elem (xmlns ++ tag) (some s) []
  | .list l => .elem (xmlns ++ tag) none (toXmlL sc l)
  | .obj c attrs => .elem (xmlns ++ tag) none (toXmlA sc (sc.fields c) attrs)
  | _ => .elem (xmlns ++ tag) none []
def toXmlL (sc : Schema C E S F) : List (Val C E S F) → List Xml
  | [] => []
  | v :: vs => toXml sc (itemTag sc v) v :: toXmlL sc vs
def toXmlA (sc : Schema C E S F) : List (Field C E S F) → List (F × Val C E S F) → List Xml
  | ⟨_, .attr _ _ _⟩ :: fs, (_, .none) :: attrs => toXmlA sc fs attrs
  | ⟨_, .attr key ty _⟩ :: fs, (_, v) :: attrs =>
    (match ty with
      | .cls d => if sc.abstract d then .elem (xmlns ++ key) none [toXml sc (itemTag sc v) v] else toXml sc key v
      | _ => toXml sc key v) :: toXmlA sc fs attrs
  | ⟨_, .excluded⟩ :: fs, _ :: attrs => toXmlA sc fs attrs
  | _, _ => []
end

/-- assumptions about the names in a schema, so that the XML format works -/
structure XmlNames (sc : Schema C E S F) : Prop where
  /-- class names begin with an upper-case letter -/
  upper : ∀ c, ∃ a s, sc.className c = a :: s ∧ 65 ≤ a ∧ a ≤ 90
  /-- no instance has a class called `DataSpecificationContent` or `Value` -/
  noContent : ∀ b c, IsA sc b c → ¬ py!"dataSpecificationContent" <:+ xmlns ++ lowerFirst (sc.className c) ∧
    sc.className c ≠ py!"DataSpecificationContent" ∧ sc.className c ≠ py!"Value"
  /-- attributes of abstract type are called `dataSpecificationContent`, or are the `value` of an `OperationVariable` -/
  abs : ∀ c f key d req, ⟨f, .attr key (.cls d) req⟩ ∈ sc.fields c → sc.abstract d = true →
    (key = py!"dataSpecificationContent" ∨ (sc.className c = py!"OperationVariable" ∧ key = py!"value"))
  /-- and no other attribute of an `OperationVariable` is called `value` -/
  opVar : ∀ c f ty req, sc.className c = py!"OperationVariable" → ⟨f, .attr py!"value" ty req⟩ ∈ sc.fields c →
    ∃ d, ty = .cls d ∧ sc.abstract d = true
  /-- attributes of concrete class have other names -/
  conc : ∀ c f key d req, ⟨f, .attr key (.cls d) req⟩ ∈ sc.fields c → sc.abstract d = false →
    sc.needsModelType d = false ∧ sc.className d ≠ py!"OperationVariable" ∧ ¬ py!"dataSpecificationContent" <:+ xmlns ++ key ∧
    key ≠ py!"operationVariable" ∧ key ≠ py!"OperationVariable" ∧ key ≠ []

end
end Verif.Spec.Parse
