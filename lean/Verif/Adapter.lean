import Verif.Parse

/-!
# Model of `aas_test_engines/test_cases/v3_0/adapter.py`
-/

namespace Verif.Parse
open Verif

/-! ## JSON (adapter.py 42-76) -/

structure JsonA where
  value : Json
  path : List PTok

namespace JsonA

/-- adapter.py 48-51 -/
def members (p : List PTok) : List (Str × Json) → List (Str × JsonA)
  | [] => []
  | (k, v) :: rest => if k = py!"modelType" then members p rest else (k, ⟨v, p ++ [.key k]⟩) :: members p rest

def asObject (a : JsonA) : Except AErr (List (Str × JsonA)) :=
  match a.value with
  | .obj kvs => .ok (members a.path kvs)
  | _ => .error (.adapter .notAnObject)

def items (p : List PTok) : Nat → List Json → List JsonA
  | _, [] => []
  | i, j :: js => ⟨j, p ++ [.idx i]⟩ :: items p (i + 1) js

/-- adapter.py 53-58 -/
def asList (a : JsonA) (allowEmpty : Bool) : Except AErr (List JsonA) :=
  match a.value with
  | .arr l => if l.isEmpty && !allowEmpty then .error (.adapter .emptyList) else .ok (items a.path 0 l)
  | _ => .error (.adapter .notAList)

/-- adapter.py 60-63 -/
def asString (a : JsonA) : Except AErr Str :=
  match a.value with
  | .str s => .ok s
  | _ => .error (.adapter .notAString)

/-- adapter.py 65-68 -/
def asBool (a : JsonA) : Except AErr Bool :=
  match a.value with
  | .bool b => .ok b
  | _ => .error (.adapter .notABool)

/-- adapter.py 70-76 -/
def modelType (a : JsonA) : Except AErr (Option Str) :=
  match a.value with
  | .obj kvs =>
    match dictGet py!"modelType" kvs with
    | none => .error (.adapter .noModelType)
    | some (.str s) => .ok (some s)
    | some _ => .ok none
  | _ => .error (.adapter .notAnObject)

end JsonA

def jsonOps : Ops JsonA := ⟨JsonA.asObject, JsonA.asList, JsonA.asString, JsonA.asBool, JsonA.modelType, JsonA.path⟩

/-! ## XML (adapter.py 82-159) -/

/-- elements of `xml.etree.ElementTree`; attributes and tails are not used by the adapter -/
inductive Xml
  | elem (tag : Str) (text : Option Str) (children : List Xml)

namespace Xml
def tag : Xml → Str | elem t _ _ => t
def text : Xml → Option Str | elem _ t _ => t
def children : Xml → List Xml | elem _ _ c => c

mutual
/-- number of elements -/
def size : Xml → Nat
  | elem _ _ c => 1 + sizeL c
def sizeL : List Xml → Nat
  | [] => 0
  | x :: xs => x.size + sizeL xs
end
end Xml

structure XmlA where
  value : Xml
  path : List PTok

namespace XmlA

/-- adapter.py 82 -/
def ns : Str := py!"{https://admin-shell.io/aas/3/0}"

/-- adapter.py 85-88 -/
def singleChild (x : Xml) : Except AErr Xml :=
  match x.children with
  | [c] => .ok c
  | _ => .error (.adapter .notOneChild)

/-- adapter.py 91-93; an element counts as true iff it has children -/
def assertNoChildren (x : Xml) : Except AErr Unit :=
  match x.children with
  | c :: _ => if c.children.isEmpty then .ok () else .error (.adapter .childElements)
  | [] => .ok ()

/-- adapter.py 96-100 -/
def assertNoText (x : Xml) : Except AErr Unit :=
  match x.text with
  | none => .ok ()
  | some t => if (Py.strip t).isEmpty then .ok () else .error (.adapter .inlineText)

/-- `str.upper` of the first character. Only the characters whose upper case is an ASCII letter are treated exactly: the ASCII
letters, U+0131 and U+017F (the outcome is only compared to ASCII names). -/
def upperFirst : Str → Str
  | [] => []
  | c :: s => (if c = 0x131 then pc! 'I' else if c = 0x17f then pc! 'S' else upperChar c) :: s

/-- adapter.py 103-106 `_get_model_type` -/
def modelTypeOf (x : Xml) : Except AErr Str :=
  match x.tag.drop ns.length with
  | [] => .error (.py .indexError)
  | c :: s => .ok (upperFirst (c :: s))

/-- adapter.py 121-124, 153-158 -/
def data (x : Xml) : Except AErr Xml :=
  if py!"dataSpecificationContent" <:+ x.tag then singleChild x else .ok x

/-- adapter.py 152-159 -/
def modelType (a : XmlA) : Except AErr (Option Str) :=
  match data a.value with
  | .error e => .error e
  | .ok d =>
    match modelTypeOf d with
    | .error e => .error e
    | .ok s => .ok (some s)

/-- `d[k] = v`: replaces the value of an existing key, otherwise appends -/
def dictSet {α : Type} (k : Str) (v : α) : List (Str × α) → List (Str × α)
  | [] => [(k, v)]
  | (k', v') :: rest => if k' = k then (k', v) :: rest else (k', v') :: dictSet k v rest

/-- adapter.py 126-135 the loop over the children -/
def members (a : XmlA) : List Xml → List (Str × XmlA) → Except AErr (List (Str × XmlA))
  | [], result => .ok result
  | child :: rest, result =>
    if ns <+: child.tag then
      let tag := child.tag.drop ns.length
      match modelType a with
      | .error e => .error e
      | .ok mt =>
        if mt = some py!"OperationVariable" ∧ tag = py!"value" then
          match singleChild child with
          | .error e => .error e
          | .ok c => members a rest (dictSet tag ⟨c, a.path ++ [.key tag]⟩ result)
        else members a rest (dictSet tag ⟨child, a.path ++ [.key tag]⟩ result)
    else .error (.adapter .badNamespace)

/-- adapter.py 115-135 -/
def asObject (a : XmlA) : Except AErr (List (Str × XmlA)) :=
  if ns <+: a.value.tag then
    match assertNoText a.value with
    | .error e => .error e
    | .ok () =>
      match data a.value with
      | .error e => .error e
      | .ok d => members a d.children []
  else .error (.adapter .badNamespace)

def items (p : List PTok) : Nat → List Xml → List XmlA
  | _, [] => []
  | i, x :: xs => ⟨x, p ++ [.idx i]⟩ :: items p (i + 1) xs

/-- adapter.py 137-143 -/
def asList (a : XmlA) (allowEmpty : Bool) : Except AErr (List XmlA) :=
  if a.value.children.isEmpty && !allowEmpty then .error (.adapter .emptyList) else .ok (items a.path 0 a.value.children)

/-- adapter.py 145-147 -/
def asString (a : XmlA) : Except AErr Str :=
  match assertNoChildren a.value with
  | .error e => .error e
  | .ok () => .ok (a.value.text.getD [])

/-- adapter.py 149-151 -/
def asBool (a : XmlA) : Except AErr Bool :=
  match assertNoChildren a.value with
  | .error e => .error e
  | .ok () => .ok (decide (a.value.text = some py!"true"))

end XmlA

def xmlOps : Ops XmlA := ⟨XmlA.asObject, XmlA.asList, XmlA.asString, XmlA.asBool, XmlA.modelType, XmlA.path⟩

end Verif.Parse
