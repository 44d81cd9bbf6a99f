import Verif.Adapter

/-!
# What the parser should do, independent of its functions

* `Conforms`: when a JSON value is an instance of a type
* `HasType`: when a Python value is an instance of a type
* `Step`: a reordering of members somewhere in a JSON value
* `At`: the part of a JSON value at a path
* `toJson`: serialisation
-/

namespace Verif.Spec.Parse
open Verif Verif.Parse

section
variable {C E S F : Type}

/-- `c'` is the class of instances of type `c` -/
def IsA (sc : Schema C E S F) (c c' : C) : Prop :=
  (sc.abstract c = false ∧ c' = c) ∨ (sc.abstract c = true ∧ c' ∈ sc.subclasses c)

/-- no object has two members of the same name; `json.load` yields such values only -/
inductive WF : Json → Prop
  | null : WF .null
  | bool (b) : WF (.bool b)
  | num (i) : WF (.num i)
  | float (t) : WF (.float t)
  | str (s) : WF (.str s)
  | arr {l} : (∀ j ∈ l, WF j) → WF (.arr l)
  | obj {kvs} : (kvs.map (·.1)).Nodup → (∀ e ∈ kvs, WF e.2) → WF (.obj kvs)

/-- The JSON value is an instance of the type: right JSON types, all required attributes, no unknown attributes, enum values and
string formats respected, right `modelType` where it is needed. -/
inductive Conforms (sc : Schema C E S F) : Ty C E S → Json → Prop
  | str (s) : Conforms sc .str (.str s)
  | bool (b) : Conforms sc .bool (.bool b)
  | any (j) : Conforms sc .any j
  | enum {e s} : s ∈ sc.enumValues e → Conforms sc (.enum e) (.str s)
  | sfv {c s} : sc.construct c s = .ok () → Conforms sc (.sfv c) (.str s)
  | list {it ae l} : (l ≠ [] ∨ ae = true) → (∀ j ∈ l, Conforms sc it j) → Conforms sc (.list it ae) (.arr l)
  | obj {c c' kvs} (isA : IsA sc c c')
      (tag : sc.abstract c = true ∨ sc.needsModelType c' = true → (py!"modelType", Json.str (sc.className c')) ∈ kvs)
      (known : ∀ e ∈ kvs, e.1 = py!"modelType" ∨ ∃ f ty req, ⟨f, .attr e.1 ty req⟩ ∈ sc.fields c')
      (required : ∀ f key ty, ⟨f, .attr key ty true⟩ ∈ sc.fields c' → ∃ j, (key, j) ∈ kvs)
      (values : ∀ f key ty req j, ⟨f, .attr key ty req⟩ ∈ sc.fields c' → (key, j) ∈ kvs → Conforms sc ty j) :
      Conforms sc (.cls c) (.obj kvs)

/-- The value is an instance of the type: every attribute has a value of its type, optional attributes may be `None`. -/
inductive HasType (sc : Schema C E S F) : Ty C E S → Val C E S F → Prop
  | str (s) : HasType sc .str (.str s)
  | bool (b) : HasType sc .bool (.bool b)
  | any : HasType sc .any .foreign
  | enum {e s} : s ∈ sc.enumValues e → HasType sc (.enum e) (.enum e s)
  | sfv {c s} : sc.construct c s = .ok () → HasType sc (.sfv c) (.sfv c s)
  | list {it ae l} : (l ≠ [] ∨ ae = true) → (∀ v ∈ l, HasType sc it v) → HasType sc (.list it ae) (.list l)
  | obj {c c' attrs} (isA : IsA sc c c')
      (names : attrs.map (·.1) = (sc.fields c').map (·.name))
      (typed : ∀ f key ty req v, (Field.mk f (.attr key ty req), f, v) ∈ (sc.fields c').zip attrs →
        v ≠ .none → HasType sc ty v)
      (required : ∀ f key ty v, (Field.mk f (.attr key ty true), f, v) ∈ (sc.fields c').zip attrs → v ≠ .none)
      (excluded : ∀ f v, (Field.mk f .excluded, f, v) ∈ (sc.fields c').zip attrs → v = .none ∨ ∃ a b t, v = .path a b t) :
      HasType sc (.cls c) (.obj c' attrs)

/-- `w` occurs in `v` -/
inductive Sub : Val C E S F → Val C E S F → Prop
  | refl (v) : Sub v v
  | item {l v w} : v ∈ l → Sub v w → Sub (.list l) w
  | attr {c attrs a w} : a ∈ attrs → Sub a.2 w → Sub (.obj c attrs) w

/-- the value without what is not in the document: paths are replaced by `None` -/
def strip : Val C E S F → Val C E S F
  | .list l => .list (stripL l)
  | .obj c attrs => .obj c (stripA attrs)
  | .path _ _ _ => .none
  | v => v
where
  stripL : List (Val C E S F) → List (Val C E S F)
    | [] => []
    | v :: vs => strip v :: stripL vs
  stripA : List (F × Val C E S F) → List (F × Val C E S F)
    | [] => []
    | (f, v) :: vs => (f, strip v) :: stripA vs

/-- assumptions about a schema -/
structure Sane (sc : Schema C E S F) : Prop where
  /-- no attribute is called `modelType` -/
  keys : ∀ c f ty req, ⟨f, .attr py!"modelType" ty req⟩ ∉ sc.fields c
  /-- subclasses have different names -/
  names : ∀ c, ((sc.subclasses c).map sc.className).Nodup
  /-- `post_parse` works on typed objects, and only changes attributes that are not in the document -/
  post : ∀ c f v, sc.postParse c = some f → HasType sc (.cls c) v →
    ∃ w, f v = .ok w ∧ HasType sc (.cls c) w ∧ strip w = strip v

/-- the members of one object are reordered -/
inductive Step : Json → Json → Prop
  | here {kvs kvs'} : kvs.Perm kvs' → Step (.obj kvs) (.obj kvs')
  | item {pre post j j'} : Step j j' → Step (.arr (pre ++ j :: post)) (.arr (pre ++ j' :: post))
  | member {pre post k j j'} : Step j j' → Step (.obj (pre ++ (k, j) :: post)) (.obj (pre ++ (k, j') :: post))

/-- members are reordered at any number of places -/
inductive Reorder : Json → Json → Prop
  | refl (j) : Reorder j j
  | step {j j' j''} : Reorder j j' → Step j' j'' → Reorder j j''

/-- the part of a JSON value at a path -/
inductive At : Json → List PTok → Json → Prop
  | root (j) : At j [] j
  | key {j p kvs k v} : At j p (.obj kvs) → (k, v) ∈ kvs → At j (p ++ [.key k]) v
  | idx {j p l i v} : At j p (.arr l) → l[i]? = some v → At j (p ++ [.idx i]) v

/-- the element of an XML document at a path; elements that merely wrap another one do not show up in paths -/
inductive XAt : Xml → List PTok → Xml → Prop
  | root (x) : XAt x [] x
  | key {x p e c k} : XAt x p e → c ∈ e.children → c.tag = py!"{https://admin-shell.io/aas/3/0}" ++ k → XAt x (p ++ [.key k]) c
  | idx {x p e c i} : XAt x p e → e.children[i]? = some c → XAt x (p ++ [.idx i]) c
  | wrap {x p e c} : XAt x p e → e.children = [c] → XAt x p c

mutual
/-- serialisation; `tagged` are the classes that get a `modelType` -/
def toJson (sc : Schema C E S F) (tagged : C → Bool) : Val C E S F → Json
  | .str s => .str s
  | .bool b => .bool b
  | .enum _ s => .str s
  | .sfv _ s => .str s
  | .list l => .arr (toJsonL sc tagged l)
  | .obj c attrs =>
    .obj ((if tagged c then [(py!"modelType", .str (sc.className c))] else []) ++ toJsonA sc tagged (sc.fields c) attrs)
  | _ => .null
def toJsonL (sc : Schema C E S F) (tagged : C → Bool) : List (Val C E S F) → List Json
  | [] => []
  | v :: vs => toJson sc tagged v :: toJsonL sc tagged vs
def toJsonA (sc : Schema C E S F) (tagged : C → Bool) : List (Field C E S F) → List (F × Val C E S F) → List (Str × Json)
  | ⟨_, .attr _ _ _⟩ :: fs, (_, .none) :: attrs => toJsonA sc tagged fs attrs
  | ⟨_, .attr key _ _⟩ :: fs, (_, v) :: attrs => (key, toJson sc tagged v) :: toJsonA sc tagged fs attrs
  | ⟨_, .excluded⟩ :: fs, _ :: attrs => toJsonA sc tagged fs attrs
  | _, _ => []
end

/-- different attributes of a class have different names in the document -/
def DistinctKeys (sc : Schema C E S F) : Prop := ∀ c, (allKeys (sc.fields c)).Nodup

/-! ## constraints -/

/-- the object `x` is nested in `v` at the path `p`; `name` are the names of attributes -/
inductive Nested (name : F → Str) : Val C E S F → List PTok → Val C E S F → Prop
  | here (c attrs) : Nested name (.obj c attrs) [] (.obj c attrs)
  | attr {c attrs f w p x} : (f, w) ∈ attrs → Nested name w p x → Nested name (.obj c attrs) (.key (name f) :: p) x
  | item {c attrs f l i w p x} : (f, .list l) ∈ attrs → l[i]? = some w → Nested name w p x →
      Nested name (.obj c attrs) (.key (name f) :: .idx i :: p) x

mutual
/-- all objects nested in a value, in the order of the attributes -/
def objects (name : F → Str) : Val C E S F → List PTok → List (List PTok × Val C E S F)
  | .obj c attrs, p => (p, .obj c attrs) :: objectsA name attrs p
  | _, _ => []
def objectsA (name : F → Str) : List (F × Val C E S F) → List PTok → List (List PTok × Val C E S F)
  | [], _ => []
  | (f, .list l) :: rest, p => objectsL name l (p ++ [.key (name f)]) 0 ++ objectsA name rest p
  | (f, v) :: rest, p => objects name v (p ++ [.key (name f)]) ++ objectsA name rest p
def objectsL (name : F → Str) : List (Val C E S F) → List PTok → Nat → List (List PTok × Val C E S F)
  | [], _, _ => []
  | v :: vs, p, i => objects name v (p ++ [.idx i]) ++ objectsL name vs p (i + 1)
end

/-- no object in the value has two attributes of the same name -/
def DistinctNames (name : F → Str) (v : Val C E S F) : Prop := ∀ p c attrs, Nested name v p (.obj c attrs) → (attrs.map fun a => name a.1).Nodup

/-- the checks of an object -/
def checksOf (checks : C → List (Val C E S F → Chk Unit)) : Val C E S F → List (Val C E S F → Chk Unit)
  | .obj c _ => checks c
  | _ => []

/-- the violation a check reports for an object at a path -/
def violation (p : List PTok) (x : Val C E S F) (check : Val C E S F → Chk Unit) : Option (Res Note) :=
  match check x with
  | .error (.violated text level) => some (Res.new ⟨.constraint text, p⟩ level)
  | _ => none

end
end Verif.Spec.Parse
