import Verif.Result
import Verif.Json

/-!
# Model of `aas_test_engines/test_cases/v3_0/parse.py`

The parser is generic: it works for every reflected class (`Schema`) and every document format (`Ops`, the adapter interface).

Messages are kept in structured form (`Note`): their kind and the path that is printed after `@`; the wording (in particular
Python's representation of arbitrary values) is not modelled.
-/

namespace Verif.Parse
open Verif

/-- reflected types (reflect.py 103-219). `C` are the classes, `E` the enumerations, `S` the classes of formatted strings.
`none`, `number` and `bytes` are known to the reflection but not to the parser. -/
inductive Ty (C E S : Type)
  | str
  | bool
  | any
  | none
  | number
  | bytes
  | enum (e : E)
  | sfv (s : S)
  | cls (c : C)
  | list (item : Ty C E S) (allowEmpty : Bool)
  deriving DecidableEq, Repr

/-- a token of an `IdShortPath` (model.py 31-34): `None`, an index, an idShort -/
inductive Tok
  | unnamed
  | idx (n : Nat)
  | name (s : Str)
  deriving DecidableEq, Repr

/-- Python values that occur in parsed objects -/
inductive Val (C E S F : Type)
  | none
  /-- parse.py 28 `INVALID` -/
  | invalid
  /-- the adapter itself, for `AnyType` -/
  | foreign
  | str (s : Str)
  | bool (b : Bool)
  | enum (e : E) (v : Str)
  | sfv (c : S) (raw : Str)
  | list (l : List (Val C E S F))
  | obj (c : C) (attrs : List (F × Val C E S F))
  /-- model.py 27-50 `IdShortPath`: idShort and id of the root, tokens -/
  | path (rootIdShort : Option Str) (rootId : Str) (toks : List Tok)

/-- an attribute of a class (reflect.py 169-174, 268-281) -/
inductive Slot (C E S : Type)
  /-- name in the document, type, whether it is required -/
  | attr (key : Str) (ty : Ty C E S) (required : Bool)
  /-- `exclude_as: None`: not in the document, initialised with `None` -/
  | excluded
  deriving DecidableEq, Repr

structure Field (C E S F : Type) where
  name : F
  slot : Slot C E S
  deriving DecidableEq, Repr

/-- reflected classes -/
structure Schema (C E S F : Type) where
  /-- fields in the order of `dataclasses.fields` -/
  fields : C → List (Field C E S F)
  /-- reflect.py 25-26 `is_abstract` -/
  abstract : C → Bool
  /-- reflect.py 222-226 the concrete subclasses -/
  subclasses : C → List C
  /-- `cls.__name__` -/
  className : C → Str
  /-- parse.py 36-42 `has_requires_model_type` -/
  needsModelType : C → Bool
  /-- values of the members of an enumeration -/
  enumValues : E → List Str
  /-- constructor of a formatted string -/
  construct : S → Str → Except PyExc Unit
  /-- method `post_parse`, if the class has it: the object afterwards -/
  postParse : C → Option (Val C E S F → Except PyExc (Val C E S F))

/-- kinds of messages -/
inductive Kind
  | title (s : Str)
  | notAnObject
  | notAList
  | emptyList
  | notAString
  | notABool
  | noModelType
  | badNamespace
  | inlineText
  | childElements
  | notOneChild
  | format
  | notInEnum
  | invalidModelType
  | wrongModelType
  | missingModelType
  | missingAttribute (key : Str)
  | unknownAttribute (key : Str)
  | constraint (text : Str)
  | skipped
  | other (s : Str)
  deriving DecidableEq, Repr

/-- an element of an `AdapterPath` (adapter.py 5-15) -/
inductive PTok
  | key (k : Str)
  | idx (n : Nat)
  deriving DecidableEq, Repr

structure Note where
  kind : Kind
  path : List PTok
  deriving DecidableEq, Repr

/-- exceptions of adapters: an `AdapterException`, or another exception -/
inductive AErr
  | adapter (k : Kind)
  | py (e : PyExc)
  deriving DecidableEq, Repr

/-- adapter.py 22-39 the interface of adapters; dictionaries are lists of entries with unique keys.
`modelType`: `none` stands for a discriminator that is not a string. -/
structure Ops (A : Type) where
  asObject : A → Except AErr (List (Str × A))
  asList : A → Bool → Except AErr (List A)
  asString : A → Except AErr Str
  asBool : A → Except AErr Bool
  modelType : A → Except AErr (Option Str)
  path : A → List PTok

/-- parse.py 31-33 `to_lower_camel_case`, for ASCII names; `none` is `IndexError` -/
def upperChar (c : Nat) : Nat := if pc! 'a' ≤ c && c ≤ pc! 'z' then c - 32 else c
def lowerChar (c : Nat) : Nat := if pc! 'A' ≤ c && c ≤ pc! 'Z' then c + 32 else c
def capitalize : Str → Str
  | [] => []
  | c :: s => upperChar c :: s.map lowerChar
def toLowerCamelCase (s : Str) : Option Str :=
  let camel := ((Py.splitOn (pc! '_') (s.map lowerChar)).map capitalize).flatten
  match s with
  | [] => none
  | c :: _ => some (lowerChar c :: camel.drop 1)

section
variable {A C E S F : Type}

/-- `result.append(AasTestResult(f"... @ {path}", level=Level.ERROR))` -/
def report (k : Kind) (p : List PTok) (res : Res Note) : Res Note := res.append (Res.new ⟨k, p⟩ .error)

/-- what functions of the parser do: a value and the changed result, or an exception -/
abbrev P (α : Type) := Res Note → Except PyExc (α × Res Note)

/-- parse.py 45-52 `parse_string_formatted_value`; catches `AdapterException` and `ValueError` -/
def parseSfv (ops : Ops A) (sc : Schema C E S F) (c : S) (a : A) : P (Val C E S F) := fun res =>
  match ops.asString a with
  | .error (.adapter k) => .ok (.invalid, report k (ops.path a) res)
  | .error (.py .valueError) => .ok (.invalid, report .format (ops.path a) res)
  | .error (.py e) => .error e
  | .ok s =>
    match sc.construct c s with
    | .ok () => .ok (.sfv c s, res)
    | .error .valueError => .ok (.invalid, report .format (ops.path a) res)
    | .error e => .error e

/-- parse.py 61 `[parse(...) for i in items]` -/
def parseItems (rec : A → P (Val C E S F)) : List A → P (List (Val C E S F))
  | [], res => .ok ([], res)
  | a :: as, res =>
    match rec a res with
    | .error e => .error e
    | .ok (v, res) =>
      match parseItems rec as res with
      | .error e => .error e
      | .ok (vs, res) => .ok (v :: vs, res)

/-- parse.py 55-61 `parse_list` -/
def parseList (ops : Ops A) (rec : A → P (Val C E S F)) (a : A) (allowEmpty : Bool) : P (Val C E S F) := fun res =>
  match ops.asList a allowEmpty with
  | .error (.adapter k) => .ok (.invalid, report k (ops.path a) res)
  | .error (.py e) => .error e
  | .ok items =>
    match parseItems rec items res with
    | .error e => .error e
    | .ok (vs, res) => .ok (.list vs, res)

/-- parse.py 64-69 `parse_bool` -/
def parseBool (ops : Ops A) (a : A) : P (Val C E S F) := fun res =>
  match ops.asBool a with
  | .error (.adapter k) => .ok (.invalid, report k (ops.path a) res)
  | .error (.py e) => .error e
  | .ok b => .ok (.bool b, res)

/-- parse.py 72-77 `parse_string` -/
def parseString (ops : Ops A) (a : A) : P (Val C E S F) := fun res =>
  match ops.asString a with
  | .error (.adapter k) => .ok (.invalid, report k (ops.path a) res)
  | .error (.py e) => .error e
  | .ok s => .ok (.str s, res)

/-- parse.py 80-90 `parse_enum` -/
def parseEnum (ops : Ops A) (sc : Schema C E S F) (e : E) (a : A) : P (Val C E S F) := fun res =>
  match ops.asString a with
  | .error (.adapter k) => .ok (.invalid, report k (ops.path a) res)
  | .error (.py e) => .error e
  | .ok s => if (sc.enumValues e).contains s then .ok (.enum e s, res) else .ok (.invalid, report .notInEnum (ops.path a) res)

/-- parse.py 133-147 the value of an attribute -/
def parseField (rec : Ty C E S → A → P (Val C E S F)) (obj : List (Str × A)) (p : List PTok) (key : Str) (ty : Ty C E S)
    (required : Bool) : P (Val C E S F) := fun res =>
  match dictGet key obj with
  | none => if required then .ok (.invalid, report (.missingAttribute key) p res) else .ok (.none, res)
  | some a => rec ty a res

/-- parse.py 130-147 the loop over the attributes of the class; `obj` is the dictionary, `p` the path of the object -/
def parseFields (rec : Ty C E S → A → P (Val C E S F)) (obj : List (Str × A)) (p : List PTok) :
    List (Field C E S F) → P (List (F × Val C E S F))
  | [], res => .ok ([], res)
  | ⟨name, .excluded⟩ :: fs, res =>
    match parseFields rec obj p fs res with
    | .error e => .error e
    | .ok (args, res) => .ok ((name, .none) :: args, res)
  | ⟨name, .attr key ty required⟩ :: fs, res =>
    match parseField rec obj p key ty required res with
    | .error e => .error e
    | .ok (v, res) =>
      match parseFields rec obj p fs res with
      | .error e => .error e
      | .ok (args, res) => .ok ((name, v) :: args, res)

/-- parse.py 129, 132 the names of all attributes -/
def allKeys (fs : List (Field C E S F)) : List Str :=
  fs.filterMap fun f => match f.slot with
    | .attr key _ _ => some key
    | .excluded => none

/-- parse.py 149-157 unknown attributes -/
def reportUnknown (keys : List Str) (p : List PTok) : List (Str × A) → Res Note → Res Note
  | [], res => res
  | (k, _) :: obj, res => reportUnknown keys p obj (if keys.contains k then res else report (.unknownAttribute k) p res)

/-- parse.py 118-126 the discriminator of a class that needs one -/
def checkModelType (ops : Ops A) (sc : Schema C E S F) (c : C) (a : A) (res : Res Note) : Except PyExc (Res Note) :=
  if sc.needsModelType c then
    match ops.modelType a with
    | .error (.adapter _) => .ok (report .missingModelType (ops.path a) res)
    | .error (.py e) => .error e
    | .ok d => .ok (if d = some (sc.className c) then res else report .wrongModelType (ops.path a) res)
  else .ok res

/-- parse.py 112-157 `parse_concrete_object` -/
def parseConcrete (ops : Ops A) (sc : Schema C E S F) (rec : Ty C E S → A → P (Val C E S F)) (c : C) (a : A) :
    P (Val C E S F) := fun res =>
  match ops.asObject a with
  | .error (.adapter k) => .ok (.invalid, report k (ops.path a) res)
  | .error (.py e) => .error e
  | .ok obj =>
    match checkModelType ops sc c a res with
    | .error e => .error e
    | .ok res =>
      match parseFields rec obj (ops.path a) (sc.fields c) res with
      | .error e => .error e
      | .ok (args, res) => .ok (.obj c args, reportUnknown (allKeys (sc.fields c)) (ops.path a) obj res)

/-- parse.py 93-109 `parse_abstract_object` -/
def parseAbstract (ops : Ops A) (sc : Schema C E S F) (rec : Ty C E S → A → P (Val C E S F)) (c : C) (a : A) :
    P (Val C E S F) := fun res =>
  match ops.modelType a with
  | .error (.adapter k) => .ok (.invalid, report k (ops.path a) res)
  | .error (.py e) => .error e
  | .ok d =>
    match (sc.subclasses c).find? (fun s => decide (d = some (sc.className s))) with
    | some s => parseConcrete ops sc rec s a res
    | none => .ok (.invalid, report .invalidModelType (ops.path a) res)

/-- parse.py 165-169 the call of `post_parse` -/
def runPostParse (sc : Schema C E S F) (v : Val C E S F) (res : Res Note) : Except PyExc (Val C E S F × Res Note) :=
  match v with
  | .obj c _ =>
    match sc.postParse c with
    | none => .ok (v, res)
    | some f =>
      if res.ok then
        match f v with
        | .error e => .error e
        | .ok v => .ok (v, res)
      else .ok (v, res)
  | _ => .ok (v, res)

/-- parse.py 160-187 `parse`. The fuel bounds the nesting depth of the document (`parseF_good` in `ParseLemmas.lean`). -/
def parseF (ops : Ops A) (sc : Schema C E S F) : Nat → Ty C E S → A → P (Val C E S F)
  | 0, _, _, _ => .error .runtimeError
  | n + 1, ty, a, res =>
    match ty with
    | .list item allowEmpty => parseList ops (parseF ops sc n item) a allowEmpty res
    | .cls c =>
      if sc.abstract c then parseAbstract ops sc (parseF ops sc n) c a res
      else
        match parseConcrete ops sc (parseF ops sc n) c a res with
        | .error e => .error e
        | .ok (v, res) => runPostParse sc v res
    | .bool => parseBool ops a res
    | .str => parseString ops a res
    | .any => .ok (.foreign, res)
    | .enum e => parseEnum ops sc e a res
    | .sfv c => parseSfv ops sc c a res
    | .none => .error .notImplementedError
    | .number => .error .notImplementedError
    | .bytes => .error .notImplementedError

/-! ## constraints -/

/-- what a `check_...` method raises: a `CheckConstraintException` (parse.py 22-25), or another exception -/
inductive Fail
  | violated (text : Str) (level : Level)
  | py (e : PyExc)
  deriving DecidableEq, Repr

abbrev Chk (α : Type) := Except Fail α

/-- parse.py 193-198 calls the methods one after the other -/
def runChecks (v : Val C E S F) (p : List PTok) : List (Val C E S F → Chk Unit) → Res Note → Except PyExc (Res Note)
  | [], res => .ok res
  | f :: fs, res =>
    match f v with
    | .ok () => runChecks v p fs res
    | .error (.violated t l) => runChecks v p fs (res.append (Res.new ⟨.constraint t, p⟩ l))
    | .error (.py e) => .error e

/-- names of attributes in paths of constraint messages: the Python names -/
abbrev Names (F : Type) := F → Str

mutual
/-- parse.py 190-205 `check_constraints`; `checks` are the methods of the class, in the order of `dir` -/
def checkConstraints (name : F → Str) (checks : C → List (Val C E S F → Chk Unit)) :
    Val C E S F → List PTok → Res Note → Except PyExc (Res Note)
  | .obj c attrs, p, res =>
    match runChecks (.obj c attrs) p (checks c) res with
    | .error e => .error e
    | .ok res => checkAttrs name checks attrs p res
  | _, _, res => .ok res
/-- parse.py 199-205 the loop over the fields -/
def checkAttrs (name : F → Str) (checks : C → List (Val C E S F → Chk Unit)) :
    List (F × Val C E S F) → List PTok → Res Note → Except PyExc (Res Note)
  | [], _, res => .ok res
  | (f, .list l) :: rest, p, res =>
    match checkItems name checks l (p ++ [.key (name f)]) 0 res with
    | .error e => .error e
    | .ok res => checkAttrs name checks rest p res
  | (f, v) :: rest, p, res =>
    match checkConstraints name checks v (p ++ [.key (name f)]) res with
    | .error e => .error e
    | .ok res => checkAttrs name checks rest p res
/-- parse.py 202-203 -/
def checkItems (name : F → Str) (checks : C → List (Val C E S F → Chk Unit)) :
    List (Val C E S F) → List PTok → Nat → Res Note → Except PyExc (Res Note)
  | [], _, _, res => .ok res
  | v :: vs, p, i, res =>
    match checkConstraints name checks v (p ++ [.idx i]) res with
    | .error e => .error e
    | .ok res => checkItems name checks vs p (i + 1) res
end

/-- parse.py 208-219 `_parse_and_check`: result and object -/
def parseAndCheck (ops : Ops A) (sc : Schema C E S F) (name : F → Str) (checks : C → List (Val C E S F → Chk Unit)) (fuel : Nat)
    (ty : Ty C E S) (a : A) : Except PyExc (Res Note × Val C E S F) :=
  match parseF ops sc fuel ty a (Res.new ⟨.title py!"Check meta model", []⟩) with
  | .error e => .error e
  | .ok (env, resultMetaModel) =>
    let resultRoot := (Res.new ⟨.title py!"Check", []⟩).append resultMetaModel
    if resultRoot.ok then
      match checkConstraints name checks env [] (Res.new ⟨.title py!"Check constraints", []⟩) with
      | .error e => .error e
      | .ok resultConstraints => .ok (resultRoot.append resultConstraints, env)
    else .ok (resultRoot.append (Res.new ⟨.skipped, []⟩ .warning), env)

end
end Verif.Parse
