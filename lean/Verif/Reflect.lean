import Verif.Adapter

/-!
# Model of `aas_test_engines/reflect.py`: reflection of classes

Python's view of the classes (`dataclasses.fields`, `__subclasses__`, the texts of types, the evaluation of forward references) is a
parameter, `World`. A symbol table is a dictionary in the order of insertion; a type under construction is `none` in it, as in the code.
Types in attributes and lists are references (`UnresolvedType`) by annotation, after `_resolve` by key of the table.
-/

namespace Verif.Reflect
open Verif

/-- type annotations -/
inductive Ann (C E S : Type)
  | none | bool | str | any | int | bytes
  | enum (e : E)
  | sfv (s : S)
  | cls (c : C)
  /-- `List[item]`, `NonEmptyList[item]` -/
  | list (item : Ann C E S) (allowEmpty : Bool)
  /-- `Optional[a]` -/
  | optional (a : Ann C E S)
  /-- `ForwardRef(name)` -/
  | forward (name : Str)
  /-- anything else -/
  | other (text : Str)
  deriving DecidableEq, Repr

variable {C E S : Type}

/-- a field of a dataclass; `exclude`: it has `exclude_as` in its metadata -/
structure PField (C E S : Type) where
  name : Str
  type : Ann C E S
  exclude : Bool
  forceName : Option Str

/-- what Python knows about the classes -/
structure World (C E S : Type) where
  /-- `str(cls)` -/
  key : Ann C E S → Str
  /-- `fields(cls)` -/
  fields : C → List (PField C E S)
  /-- `cls.__subclasses__()` -/
  direct : C → List C
  isAbstract : C → Bool
  isDataclass : C → Bool
  /-- evaluation of forward references -/
  names : Str → Option (Ann C E S)
  /-- bound for the height of the class hierarchy -/
  height : Nat

/-- reflect.py 167-172 `ClassType.Attribute`; `R`: references -/
structure Attribute (R : Type) where
  name : Str
  type : R
  required : Bool
  forceName : Option Str
  deriving DecidableEq, Repr

/-- reflect.py 108-213 the types -/
inductive Sym (C E S R : Type)
  | none | bool | str | any | number | bytes
  | enum (e : E)
  | sfv (s : S)
  | list (item : R) (allowEmpty : Bool)
  | cls (c : C) (attrs : List (Attribute R)) (static : List Str) (subclasses : List R)
  deriving DecidableEq, Repr

abbrev Tbl (C E S : Type) := List (Str × Option (Sym C E S (Ann C E S)))

/-- reflect.py 29-38 `_unwrap_optional` -/
def unwrapOptional : Ann C E S → Bool × Ann C E S
  | .optional a => (false, a)
  | a => (true, a)

/-- reflect.py 41-52 `_unwrap_forward_ref` -/
def unwrapForward (w : World C E S) : Ann C E S → Except PyExc (Ann C E S)
  | .forward n =>
    match w.names n with
    | some a => .ok a
    | none => .error .generic
  | a => .ok a

/-- reflect.py 222-226 `_collect_subclasses`; the number bounds the depth -/
def collect (w : World C E S) : Nat → C → List C
  | 0, _ => []
  | n + 1, c => (w.direct c).flatMap fun i => (if w.isAbstract i then [] else [i]) ++ collect w n i

section
variable (w : World C E S) (rec : Ann C E S → Tbl C E S → Except PyExc (Tbl C E S))

/-- reflect.py 270-281 the loop over the fields -/
def reflectFields : List (PField C E S) → Tbl C E S → Except PyExc (List (Attribute (Ann C E S)) × List Str × Tbl C E S)
  | [], t => .ok ([], [], t)
  | f :: fs, t => do
    let (required, ty) := unwrapOptional f.type
    if f.exclude then
      let (attrs, static, t) ← reflectFields fs t
      return (attrs, f.name :: static, t)
    else
      let ty ← unwrapForward w ty
      let t ← rec ty t
      let (attrs, static, t) ← reflectFields fs t
      return (⟨f.name, ty, required, f.forceName⟩ :: attrs, static, t)

/-- reflect.py 284-286 the loop over the subclasses -/
def reflectSubs : List C → Tbl C E S → Except PyExc (Tbl C E S)
  | [], t => .ok t
  | c :: cs, t => do
    let t ← rec (.cls c) t
    reflectSubs cs t

/-- reflect.py 303-339 (the function doing the work of `_reflect`), with 260-263 `_reflect_list` and 266-287 `_reflect_class` -/
def reflectRaw : Ann C E S → Tbl C E S → Except PyExc (Sym C E S (Ann C E S) × Tbl C E S)
  | .list item allowEmpty, t => do
    let item ← unwrapForward w item
    let t ← rec item t
    return (.list item allowEmpty, t)
  | .none, t => .ok (.none, t)
  | .bool, t => .ok (.bool, t)
  | .str, t => .ok (.str, t)
  | .any, t => .ok (.any, t)
  | .int, t => .ok (.number, t)
  | .bytes, t => .ok (.bytes, t)
  | .enum e, t => .ok (.enum e, t)
  | .sfv s, t => .ok (.sfv s, t)
  | .cls c, t =>
    if !w.isDataclass c then .error .generic
    else do
      let (attrs, static, t) ← reflectFields w rec (w.fields c) t
      let subs := collect w w.height c
      let t ← reflectSubs rec subs t
      return (.cls c attrs static (subs.map .cls), t)
  | .optional _, _ => .error .notImplementedError
  | .forward _, _ => .error .typeError  -- `issubclass` is called with something that is no class
  | .other _, _ => .error .notImplementedError
end

/-- reflect.py 290-300 `_reflect`; the number bounds the depth of the recursion, see `C60_terminates` -/
def reflectF (w : World C E S) : Nat → Ann C E S → Tbl C E S → Except PyExc (Tbl C E S)
  | 0, _, _ => .error .runtimeError
  | n + 1, a, t =>
    match dictGet (w.key a) t with
    | some _ => .ok t
    | none => do
      let (sym, t) ← reflectRaw w (reflectF w n) a (Parse.XmlA.dictSet (w.key a) none t)
      return Parse.XmlA.dictSet (w.key a) (some sym) t

/-- reflect.py 247-258 `_resolve`: a reference -/
def resolveRef (w : World C E S) (t : Tbl C E S) (a : Ann C E S) : Except PyExc Str :=
  match dictGet (w.key a) t with
  | some _ => .ok (w.key a)
  | none => .error .keyError

def resolveSym (w : World C E S) (t : Tbl C E S) : Sym C E S (Ann C E S) → Except PyExc (Sym C E S Str)
  | .cls c attrs static subs => do
    let attrs ← attrs.mapM fun a => do return { name := a.name, type := ← resolveRef w t a.type, required := a.required, forceName := a.forceName }
    let subs ← subs.mapM (resolveRef w t)
    return .cls c attrs static subs
  | .list item ae => do return .list (← resolveRef w t item) ae
  | .none => .ok .none
  | .bool => .ok .bool
  | .str => .ok .str
  | .any => .ok .any
  | .number => .ok .number
  | .bytes => .ok .bytes
  | .enum e => .ok (.enum e)
  | .sfv s => .ok (.sfv s)

/-- reflect.py 247-258 `_resolve`; `None` is left as it is -/
def resolve (w : World C E S) (t : Tbl C E S) : Except PyExc (List (Str × Option (Sym C E S Str))) :=
  t.mapM fun p =>
    match p.2 with
    | none => .ok (p.1, none)
    | some s => do return (p.1, some (← resolveSym w t s))

/-- reflect.py 342-346 `reflect`: the symbol table -/
def reflect (w : World C E S) (fuel : Nat) (a : Ann C E S) : Except PyExc (List (Str × Option (Sym C E S Str))) := do
  resolve w (← reflectF w fuel a [])

/-- reflect.py 237-244 `lookup` -/
def lookup {α : Type} (typeName : Str) (symbols : List (Str × α)) : Except PyExc α :=
  match symbols.filter (fun p => Py.endsWith p.1 (pc! '.' :: typeName ++ py!"'>")) with
  | [p] => .ok p.2
  | _ => .error .valueError

/-- reflect.py 150-154 `FunctionType.Argument`: name, type as found in the symbol table, and whether it is required -/
structure Argument (C E S : Type) where
  name : Str
  type : Option (Sym C E S (Ann C E S))
  required : Bool
  deriving DecidableEq, Repr

/-- reflect.py 149, 165-168 `FunctionType`, without the function itself -/
structure FunctionType (C E S : Type) where
  result : Option (Sym C E S (Ann C E S))
  args : List (Argument C E S)
  deriving DecidableEq, Repr

/-- reflect.py 354-359 the loop over the annotations; `_reflect` returns the entry of the table -/
def reflectArgs (w : World C E S) (fuel : Nat) : List (Str × Ann C E S) → Tbl C E S → Except PyExc (List (Argument C E S))
  | [], _ => .ok []
  | (key, value) :: rest, t =>
    if key = py!"return" then reflectArgs w fuel rest t
    else do
      let (required, argType) := unwrapOptional value
      let t ← reflectF w fuel argType t
      let args ← reflectArgs w fuel rest t
      return ⟨key, (dictGet (w.key argType) t).join, required⟩ :: args

/-- reflect.py 349-360 `reflect_function`: `annotations` is `fn.__annotations__`; the table is not resolved -/
def reflectFunction (w : World C E S) (fuel : Nat) (annotations : List (Str × Ann C E S)) : Except PyExc (FunctionType C E S) := do
  let returnType := (dictGet py!"return" annotations).getD .none
  let t ← reflectF w fuel returnType []
  let args ← reflectArgs w fuel annotations t
  return ⟨(dictGet (w.key returnType) t).join, args⟩

/-- reflect.py 156-163 `Argument.__eq__`: types are not compared -/
def Argument.same (a b : Argument C E S) : Bool := if a.name ≠ b.name then false else if a.required != b.required then false else true

/-- equality of lists in Python -/
def sameArgs : List (Argument C E S) → List (Argument C E S) → Bool
  | [], [] => true
  | a :: as, b :: bs => a.same b && sameArgs as bs
  | _, _ => false

/-- reflect.py 170-172 `FunctionType.__eq__` -/
def FunctionType.same (f g : FunctionType C E S) : Bool := sameArgs f.args g.args

end Verif.Reflect
