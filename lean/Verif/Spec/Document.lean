import Verif.Spec.Parse

/-! # What a document says about an object -/

namespace Verif.Spec.Parse
open Verif Verif.Parse

section
variable {C E S F : Type}

/-- The JSON value describes the value: texts, booleans and lists are the same, every attribute has the value that the member of its
name describes, attributes without member are `None`. -/
inductive Describes (sc : Schema C E S F) : Ty C E S → Json → Val C E S F → Prop
  | str (s) : Describes sc .str (.str s) (.str s)
  | bool (b) : Describes sc .bool (.bool b) (.bool b)
  | any (j) : Describes sc .any j .foreign
  | enum (e s) : Describes sc (.enum e) (.str s) (.enum e s)
  | sfv (c s) : Describes sc (.sfv c) (.str s) (.sfv c s)
  | list {it ae js vs} (length : js.length = vs.length)
      (items : ∀ (i : Nat) (j : Json) (v : Val C E S F), js[i]? = some j → vs[i]? = some v → Describes sc it j v) :
      Describes sc (.list it ae) (.arr js) (.list vs)
  | obj {c c' kvs attrs} (isA : IsA sc c c')
      (tag : sc.abstract c = true → (py!"modelType", Json.str (sc.className c')) ∈ kvs)
      (names : attrs.map (·.1) = (sc.fields c').map (·.name))
      (present : ∀ f key ty req v j, (Field.mk f (.attr key ty req), f, v) ∈ (sc.fields c').zip attrs → (key, j) ∈ kvs →
        Describes sc ty j v)
      (absent : ∀ f key ty req v, (Field.mk f (.attr key ty req), f, v) ∈ (sc.fields c').zip attrs → (∀ j, (key, j) ∉ kvs) → v = .none)
      (excluded : ∀ f v, (Field.mk f .excluded, f, v) ∈ (sc.fields c').zip attrs → v = .none) :
      Describes sc (.cls c) (.obj kvs) (.obj c' attrs)

end
end Verif.Spec.Parse
