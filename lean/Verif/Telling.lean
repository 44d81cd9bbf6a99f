import Verif.Wording
import Verif.Adapter
import Verif.Model

/-!
# The texts of the lines about mistakes of documents

The adapters (`adapter.py` 42-159), the parser (`parse.py` 45-187), and the constructors of formatted strings (`reflect.py` 61-84, `model.py` 133-136,
161-164, 170-173) once more, with the texts of the exceptions and of the lines. `TellLemmas.lean` shows that nothing else is different from
`Adapter.lean`, `Parse.lean` and `Strings.lean`.
-/

namespace Verif.Parse
open Verif

/-- what the texts take from the interpreter -/
structure Words where
  /-- `str(value)` for numbers, lists and dictionaries -/
  str : Json → Str
  /-- `str.isprintable` for characters that are not ASCII -/
  printable : Nat → Bool
  /-- `str.upper` for a character -/
  upper : Nat → Str

namespace Words
variable (W : Words)

/-- `str(value)` for a value of JSON -/
def show_ : Json → Str
  | .str s => s
  | .null => py!"None"
  | .bool true => py!"True"
  | .bool false => py!"False"
  | j => W.str j

/-- a digit of a hexadecimal number -/
def hexDigit (n : Nat) : Nat := if n < 10 then 48 + n else 87 + n

/-- `n` hexadecimal digits -/
def hex : Nat → Nat → Str
  | 0, _ => []
  | n + 1, c => hex n (c / 16) ++ [hexDigit (c % 16)]

/-- a character in `repr(s)`, with the quotes `q` -/
def reprChar (q c : Nat) : Str :=
  if c = q ∨ c = 92 then [92, c]
  else if c = 9 then py!"\\t"
  else if c = 10 then py!"\\n"
  else if c = 13 then py!"\\r"
  else if 32 ≤ c ∧ c < 127 then [c]
  else if 127 < c ∧ W.printable c = true then [c]
  else if c < 0x100 then py!"\\x" ++ hex 2 c
  else if c < 0x10000 then py!"\\u" ++ hex 4 c
  else py!"\\U" ++ hex 8 c

/-- `repr(s)` -/
def repr (s : Str) : Str :=
  let q := if s.contains 39 && !s.contains 34 then 34 else 39
  q :: s.flatMap (W.reprChar q) ++ [q]

end Words

/-- a line about a place of the document: its kind, as in `Note`, and its text -/
structure Line where
  kind : Kind
  text : Str
  path : List PTok
  deriving DecidableEq, Repr

/-- without the text -/
def Line.note (l : Line) : Note := ⟨l.kind, l.path⟩

/-- `f"{text} @ {path}"` -/
def Line.shown (l : Line) : Str := l.text ++ py!" @ " ++ pathText l.path

/-- exceptions of adapters: an `AdapterException` with its text, or another exception -/
inductive TErr
  | adapter (k : Kind) (t : Str)
  | py (e : PyExc)
  deriving DecidableEq, Repr

/-- adapter.py 22-39 the interface of adapters. The discriminator is given twice: as it is compared (`none` if it is not a string), and as it is shown. -/
structure TOps (A : Type) where
  asObject : A → Except TErr (List (Str × A))
  asList : A → Bool → Except TErr (List A)
  asString : A → Except TErr Str
  asBool : A → Except TErr Bool
  modelType : A → Except TErr (Option Str × Str)
  path : A → List PTok

/-! ## JSON (adapter.py 42-76) -/

namespace JsonA
variable (W : Words)

/-- adapter.py 48-51 -/
def tellObject (a : JsonA) : Except TErr (List (Str × JsonA)) :=
  match a.value with
  | .obj kvs => .ok (members a.path kvs)
  | v => .error (.adapter .notAnObject (py!"Cannot convert " ++ W.show_ v ++ py!" to object"))

/-- adapter.py 53-58 -/
def tellList (a : JsonA) (allowEmpty : Bool) : Except TErr (List JsonA) :=
  match a.value with
  | .arr l => if l.isEmpty && !allowEmpty then .error (.adapter .emptyList py!"Empty array not allowed") else .ok (items a.path 0 l)
  | v => .error (.adapter .notAList (py!"Cannot convert " ++ W.show_ v ++ py!" to list"))

/-- adapter.py 60-63 -/
def tellString (a : JsonA) : Except TErr Str :=
  match a.value with
  | .str s => .ok s
  | v => .error (.adapter .notAString (py!"Cannot convert " ++ W.show_ v ++ py!" to string"))

/-- adapter.py 65-68 -/
def tellBool (a : JsonA) : Except TErr Bool :=
  match a.value with
  | .bool b => .ok b
  | v => .error (.adapter .notABool (py!"Cannot convert " ++ W.show_ v ++ py!" to bool"))

/-- adapter.py 70-76 -/
def tellModelType (a : JsonA) : Except TErr (Option Str × Str) :=
  match a.value with
  | .obj kvs =>
    match dictGet py!"modelType" kvs with
    | none => .error (.adapter .noModelType py!"Missing 'modelType'")
    | some (.str s) => .ok (some s, s)
    | some j => .ok (none, W.show_ j)
  | v => .error (.adapter .notAnObject (py!"Expected an object, got " ++ W.show_ v))

end JsonA

def jsonTells (W : Words) : TOps JsonA :=
  ⟨JsonA.tellObject W, JsonA.tellList W, JsonA.tellString W, JsonA.tellBool W, JsonA.tellModelType W, JsonA.path⟩

/-! ## XML (adapter.py 82-159) -/

namespace XmlA
variable (W : Words)

/-- adapter.py 85-88 -/
def tellSingle (x : Xml) : Except TErr Xml :=
  match x.children with
  | [c] => .ok c
  | _ => .error (.adapter .notOneChild py!"DataSpecificationContent must have exactly one child")

/-- adapter.py 91-93 -/
def tellNoChildren (x : Xml) : Except TErr Unit :=
  match x.children with
  | c :: _ => if c.children.isEmpty then .ok () else .error (.adapter .childElements py!"No child elements allowed")
  | [] => .ok ()

/-- adapter.py 96-100 -/
def tellNoText (x : Xml) : Except TErr Unit :=
  match x.text with
  | none => .ok ()
  | some t => if (Py.strip t).isEmpty then .ok () else .error (.adapter .inlineText py!"No inline text allowed")

/-- adapter.py 103-106 `_get_model_type`, as it is compared (see `modelTypeOf`) and as it is shown -/
def tellTypeOf (x : Xml) : Except TErr (Str × Str) :=
  match x.tag.drop ns.length with
  | [] => .error (.py .indexError)
  | c :: s => .ok (upperFirst (c :: s), W.upper c ++ s)

/-- adapter.py 121-124, 153-158 -/
def tellData (x : Xml) : Except TErr Xml :=
  if py!"dataSpecificationContent" <:+ x.tag then tellSingle x else .ok x

/-- adapter.py 152-159 -/
def tellModelType (a : XmlA) : Except TErr (Option Str × Str) :=
  match tellData a.value with
  | .error e => .error e
  | .ok d =>
    match tellTypeOf W d with
    | .error e => .error e
    | .ok (s, t) => .ok (some s, t)

/-- adapter.py 126-135 the loop over the children -/
def tellMembers (a : XmlA) : List Xml → List (Str × XmlA) → Except TErr (List (Str × XmlA))
  | [], result => .ok result
  | child :: rest, result =>
    if ns <+: child.tag then
      let tag := child.tag.drop ns.length
      match tellModelType W a with
      | .error e => .error e
      | .ok (mt, _) =>
        if mt = some py!"OperationVariable" ∧ tag = py!"value" then
          match tellSingle child with
          | .error e => .error e
          | .ok c => tellMembers a rest (dictSet tag ⟨c, a.path ++ [.key tag]⟩ result)
        else tellMembers a rest (dictSet tag ⟨child, a.path ++ [.key tag]⟩ result)
    else .error (.adapter .badNamespace (py!"invalid namespace, got " ++ child.tag))

/-- adapter.py 115-135 -/
def tellObject (a : XmlA) : Except TErr (List (Str × XmlA)) :=
  if ns <+: a.value.tag then
    match tellNoText a.value with
    | .error e => .error e
    | .ok () =>
      match tellData a.value with
      | .error e => .error e
      | .ok d => tellMembers W a d.children []
  else .error (.adapter .badNamespace (py!"invalid namespace, got '" ++ a.value.tag ++ py!"'"))

/-- adapter.py 137-143 -/
def tellList (a : XmlA) (allowEmpty : Bool) : Except TErr (List XmlA) :=
  if a.value.children.isEmpty && !allowEmpty then .error (.adapter .emptyList py!"Empty list not allowed")
  else .ok (items a.path 0 a.value.children)

/-- adapter.py 145-147 -/
def tellString (a : XmlA) : Except TErr Str :=
  match tellNoChildren a.value with
  | .error e => .error e
  | .ok () => .ok (a.value.text.getD [])

/-- adapter.py 149-151 -/
def tellBool (a : XmlA) : Except TErr Bool :=
  match tellNoChildren a.value with
  | .error e => .error e
  | .ok () => .ok (decide (a.value.text = some py!"true"))

end XmlA

def xmlTells (W : Words) : TOps XmlA :=
  ⟨XmlA.tellObject W, XmlA.tellList, XmlA.tellString, XmlA.tellBool, XmlA.tellModelType W, XmlA.path⟩

/-! ## the parser -/

/-- exceptions of constructors: a `ValueError` with its text, or another exception -/
inductive CErr
  | value (t : Str)
  | py (e : PyExc)
  deriving DecidableEq, Repr

/-- what else the texts take from the meta-model -/
structure Texts (E S : Type) where
  /-- constructor of a formatted string -/
  construct : S → Str → Except CErr Unit
  /-- `__qualname__` of an enumeration -/
  enumName : E → Str

section
variable {A C E S F : Type}

/-- `result.append(AasTestResult(f"{text} @ {path}", level=Level.ERROR))` -/
def tell (k : Kind) (t : Str) (p : List PTok) (res : Res Line) : Res Line := res.append (Res.new ⟨k, t, p⟩ .error)

/-- what functions of the parser do: a value and the changed result, or an exception -/
abbrev T (α : Type) := Res Line → Except PyExc (α × Res Line)

/-- parse.py 45-52 `parse_string_formatted_value`; catches `AdapterException` and `ValueError` -/
def tellSfv (ops : TOps A) (tx : Texts E S) (c : S) (a : A) : T (Val C E S F) := fun res =>
  match ops.asString a with
  | .error (.adapter k t) => .ok (.invalid, tell k t (ops.path a) res)
  | .error (.py e) => .error e
  | .ok s =>
    match tx.construct c s with
    | .ok () => .ok (.sfv c s, res)
    | .error (.value t) => .ok (.invalid, tell .format t (ops.path a) res)
    | .error (.py e) => .error e

/-- parse.py 61 `[parse(...) for i in items]` -/
def tellItems (rec : A → T (Val C E S F)) : List A → T (List (Val C E S F))
  | [], res => .ok ([], res)
  | a :: as, res =>
    match rec a res with
    | .error e => .error e
    | .ok (v, res) =>
      match tellItems rec as res with
      | .error e => .error e
      | .ok (vs, res) => .ok (v :: vs, res)

/-- parse.py 55-61 `parse_list` -/
def tellListT (ops : TOps A) (rec : A → T (Val C E S F)) (a : A) (allowEmpty : Bool) : T (Val C E S F) := fun res =>
  match ops.asList a allowEmpty with
  | .error (.adapter k t) => .ok (.invalid, tell k t (ops.path a) res)
  | .error (.py e) => .error e
  | .ok items =>
    match tellItems rec items res with
    | .error e => .error e
    | .ok (vs, res) => .ok (.list vs, res)

/-- parse.py 64-69 `parse_bool` -/
def tellBoolT (ops : TOps A) (a : A) : T (Val C E S F) := fun res =>
  match ops.asBool a with
  | .error (.adapter k t) => .ok (.invalid, tell k t (ops.path a) res)
  | .error (.py e) => .error e
  | .ok b => .ok (.bool b, res)

/-- parse.py 72-77 `parse_string` -/
def tellStringT (ops : TOps A) (a : A) : T (Val C E S F) := fun res =>
  match ops.asString a with
  | .error (.adapter k t) => .ok (.invalid, tell k t (ops.path a) res)
  | .error (.py e) => .error e
  | .ok s => .ok (.str s, res)

/-- parse.py 80-90 `parse_enum`, and the text of the `ValueError` of `Enum.__new__`: `f"{value!r} is not a valid {cls.__qualname__}"` -/
def tellEnum (W : Words) (ops : TOps A) (sc : Schema C E S F) (tx : Texts E S) (e : E) (a : A) : T (Val C E S F) := fun res =>
  match ops.asString a with
  | .error (.adapter k t) => .ok (.invalid, tell k t (ops.path a) res)
  | .error (.py e) => .error e
  | .ok s =>
    if (sc.enumValues e).contains s then .ok (.enum e s, res)
    else .ok (.invalid, tell .notInEnum (W.repr s ++ py!" is not a valid " ++ tx.enumName e) (ops.path a) res)

/-- parse.py 133-147 the value of an attribute -/
def tellField (rec : Ty C E S → A → T (Val C E S F)) (obj : List (Str × A)) (p : List PTok) (key : Str) (ty : Ty C E S)
    (required : Bool) : T (Val C E S F) := fun res =>
  match dictGet key obj with
  | none => if required then .ok (.invalid, tell (.missingAttribute key) (py!"Missing attribute " ++ key) p res) else .ok (.none, res)
  | some a => rec ty a res

/-- parse.py 130-147 the loop over the attributes of the class -/
def tellFields (rec : Ty C E S → A → T (Val C E S F)) (obj : List (Str × A)) (p : List PTok) :
    List (Field C E S F) → T (List (F × Val C E S F))
  | [], res => .ok ([], res)
  | ⟨name, .excluded⟩ :: fs, res =>
    match tellFields rec obj p fs res with
    | .error e => .error e
    | .ok (args, res) => .ok ((name, .none) :: args, res)
  | ⟨name, .attr key ty required⟩ :: fs, res =>
    match tellField rec obj p key ty required res with
    | .error e => .error e
    | .ok (v, res) =>
      match tellFields rec obj p fs res with
      | .error e => .error e
      | .ok (args, res) => .ok ((name, v) :: args, res)

/-- parse.py 149-157 unknown attributes -/
def tellUnknown (keys : List Str) (p : List PTok) : List (Str × A) → Res Line → Res Line
  | [], res => res
  | (k, _) :: obj, res =>
    tellUnknown keys p obj (if keys.contains k then res else tell (.unknownAttribute k) (py!"Unknown additional attribute " ++ k) p res)

/-- parse.py 118-126 the discriminator of a class that needs one -/
def tellDiscriminator (ops : TOps A) (sc : Schema C E S F) (c : C) (a : A) (res : Res Line) : Except PyExc (Res Line) :=
  if sc.needsModelType c then
    match ops.modelType a with
    | .error (.adapter _ _) => .ok (tell .missingModelType py!"Model typ missing" (ops.path a) res)
    | .error (.py e) => .error e
    | .ok (d, _) => .ok (if d = some (sc.className c) then res else tell .wrongModelType py!"Wrong model type" (ops.path a) res)
  else .ok res

/-- parse.py 112-157 `parse_concrete_object` -/
def tellConcrete (ops : TOps A) (sc : Schema C E S F) (rec : Ty C E S → A → T (Val C E S F)) (c : C) (a : A) :
    T (Val C E S F) := fun res =>
  match ops.asObject a with
  | .error (.adapter k t) => .ok (.invalid, tell k t (ops.path a) res)
  | .error (.py e) => .error e
  | .ok obj =>
    match tellDiscriminator ops sc c a res with
    | .error e => .error e
    | .ok res =>
      match tellFields rec obj (ops.path a) (sc.fields c) res with
      | .error e => .error e
      | .ok (args, res) => .ok (.obj c args, tellUnknown (allKeys (sc.fields c)) (ops.path a) obj res)

/-- parse.py 93-109 `parse_abstract_object` -/
def tellAbstract (ops : TOps A) (sc : Schema C E S F) (rec : Ty C E S → A → T (Val C E S F)) (c : C) (a : A) :
    T (Val C E S F) := fun res =>
  match ops.modelType a with
  | .error (.adapter k t) => .ok (.invalid, tell k t (ops.path a) res)
  | .error (.py e) => .error e
  | .ok (d, t) =>
    match (sc.subclasses c).find? (fun s => decide (d = some (sc.className s))) with
    | some s => tellConcrete ops sc rec s a res
    | none => .ok (.invalid, tell .invalidModelType (py!"Invalid model type " ++ t) (ops.path a) res)

/-- parse.py 165-169 the call of `post_parse` -/
def tellPostParse (sc : Schema C E S F) (v : Val C E S F) (res : Res Line) : Except PyExc (Val C E S F × Res Line) :=
  match v with
  | .obj c _ =>
    match sc.postParse c with
    | none => .ok (v, res)
    | some f =>
      if res.ok then
        match f v with
        | .error e => .error e
        | .ok v => .ok (v, res)
      else .ok (v, res)
  | _ => .ok (v, res)

/-- parse.py 160-187 `parse` -/
def tellF (W : Words) (ops : TOps A) (sc : Schema C E S F) (tx : Texts E S) : Nat → Ty C E S → A → T (Val C E S F)
  | 0, _, _, _ => .error .runtimeError
  | n + 1, ty, a, res =>
    match ty with
    | .list item allowEmpty => tellListT ops (tellF W ops sc tx n item) a allowEmpty res
    | .cls c =>
      if sc.abstract c then tellAbstract ops sc (tellF W ops sc tx n) c a res
      else
        match tellConcrete ops sc (tellF W ops sc tx n) c a res with
        | .error e => .error e
        | .ok (v, res) => tellPostParse sc v res
    | .bool => tellBoolT ops a res
    | .str => tellStringT ops a res
    | .any => .ok (.foreign, res)
    | .enum e => tellEnum W ops sc tx e a res
    | .sfv c => tellSfv ops tx c a res
    | .none => .error .notImplementedError
    | .number => .error .notImplementedError
    | .bytes => .error .notImplementedError

end
end Verif.Parse

/-! ## the meta-model -/

namespace Verif.Aas
open Verif Verif.Parse Verif.DataTypes

/-- names of the enumerations, model.py 210, 292, 483, 644, 687, 753, 881, 886, 935 and data_types.py 326 -/
def enumName : EnumCls → Str
  | .keyType => py!"KeyType"
  | .referenceType => py!"ReferenceType"
  | .dataTypeIec61360 => py!"DataTypeIec61360"
  | .modellingKind => py!"ModellingKind"
  | .qualifierKind => py!"QualifierKind"
  | .assetKind => py!"AssetKind"
  | .stateOfEvent => py!"StateOfEvent"
  | .direction => py!"Direction"
  | .entityType => py!"EntityType"
  | .dataTypeDefXsd => py!"DataTypeDefXsd"

/-- reflect.py 61-84 `StringFormattedValue.__init__` -/
def tellBase (c : SfvCls) (s : Str) : Except CErr Unit :=
  if (minLengthOf c).any (fun m => decide (s.length < m)) then
    .error (.value (py!"String is shorter than " ++ Py.natStr ((minLengthOf c).getD 0) ++ py!" characters"))
  else if (maxLengthOf c).any (fun m => decide (m < s.length)) then
    .error (.value (py!"String is longer than " ++ Py.natStr ((maxLengthOf c).getD 0) ++ py!" characters"))
  else if !Re.fullmatch xmlRe s then .error (.value py!"Constraint AASd-130 violated: String is not XML serializable")
  else
    match patternOf c with
    | none => .ok ()
    | some p => if patternMatches p s then .ok () else .error (.value (py!"String '" ++ s ++ py!"' does not match pattern " ++ p))

/-- number of digits of the year: the only argument of `int` that has more than two digits -/
def digitsOfYear (s : Str) : Nat :=
  let t := if s.head? = some (pc! '-') then s.drop 1 else s
  (t.takeWhile fun c => decide (48 ≤ c ∧ c ≤ 57)).length

/-- the text of the `ValueError` of `int` for too many digits -/
def limitText (lim : Option Nat) (s : Str) : Str :=
  py!"Exceeds the limit (" ++ Py.natStr (lim.getD 0) ++ py!" digits) for integer string conversion: value has " ++ Py.natStr (digitsOfYear s) ++
    py!" digits; use sys.set_int_max_str_digits() to increase the limit"

/-- `if not f(raw_value): raise ValueError(text)`; a `ValueError` of `f` itself comes from `int` -/
def tellUnless (text limit : Str) : Except PyExc Bool → Except CErr Unit
  | .error .valueError => .error (.value limit)
  | .error e => .error (.py e)
  | .ok true => .ok ()
  | .ok false => .error (.value text)

/-- model.py 133-136, 161-164, 170-173: the constructors that check more -/
def tellConstruct (lim : Option Nat) (c : SfvCls) (s : Str) : Except CErr Unit :=
  match tellBase c s with
  | .error e => .error e
  | .ok () =>
    match c with
    | .pathString => tellUnless py!"Not a valid path" [] (.ok (isAnyUri s))
    | .dateTime => tellUnless py!"Not an xs:dateTime" (limitText lim s) (isXsDateTime lim s)
    | .dateTimeUtc => tellUnless py!"Not an xs:dateTimeUtc" (limitText lim s) (isXsDateTimeUtc lim s)
    | _ => .ok ()

/-- the texts of the meta-model -/
def texts (lim : Option Nat) : Texts EnumCls SfvCls := ⟨tellConstruct lim, enumName⟩

end Verif.Aas
