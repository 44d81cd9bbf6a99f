import Verif.Http
import Verif.Parse
import Verif.Context

/-!
# Model of `aas_test_engines/test_cases/v3_0/generate.py`: negative tests of API operations

`generate_calls` is a program over an arbitrary operation (`func`), which gets the keyword arguments of the call.
-/

namespace Verif.Generate
open Verif Verif.Parse Verif.Http

/-- Python values that are passed to API operations. `member` is a member of an enumeration (`str` and `.value` of it), `dummy` a
`DummyEnumValue` (generate.py 16-25), `sfv` a `StringFormattedValue` (reflect.py 55-93), `assetId` an `AssetId` (shared.py 132-139). -/
inductive ArgVal
  | none
  | int (i : Int)
  | bool (b : Bool)
  | str (s : Str)
  | member (text value : Str)
  | dummy (value : Str)
  | sfv (base64 : Bool) (raw : Str)
  | assetId (name value : Str)
  deriving DecidableEq, Repr

/-- `str(i)` for an `int` -/
def intStr : Int → Str
  | .ofNat n => Py.natStr n
  | .negSucc n => pc! '-' :: Py.natStr (n + 1)

/-- four hex digits, as in `json.dumps` -/
def hex4 (n : Nat) : Str :=
  let d := fun k => if k < 10 then pc! '0' + k else pc! 'a' + (k - 10)
  [d (n / 4096 % 16), d (n / 256 % 16), d (n / 16 % 16), d (n % 16)]

/-- a character in `json.dumps` (`ensure_ascii`) -/
def dumpsChar (c : Nat) : Str :=
  if c = 34 then [92, 34]
  else if c = 92 then [92, 92]
  else if c = 10 then [92, pc! 'n']
  else if c = 13 then [92, pc! 'r']
  else if c = 9 then [92, pc! 't']
  else if c = 12 then [92, pc! 'f']
  else if c = 8 then [92, pc! 'b']
  else if 32 ≤ c && c ≤ 126 then [c]
  else if c < 0x10000 then 92 :: pc! 'u' :: hex4 c
  else (92 :: pc! 'u' :: hex4 (0xd800 + (c - 0x10000) / 1024)) ++ (92 :: pc! 'u' :: hex4 (0xdc00 + (c - 0x10000) % 1024))

/-- `json.dumps` of a string -/
def dumpsStr (s : Str) : Str := 34 :: ((s.map dumpsChar).flatten ++ [34])

/-- shared.py 137-139 `AssetId.__str__` -/
def assetIdStr (name value : Str) : Except PyExc Str :=
  base64Urlsafe (py!"{\"name\": " ++ (dumpsStr name ++ (py!", \"value\": " ++ (dumpsStr value ++ py!"}"))))

/-- `str(v)` -/
def ArgVal.pyStr : ArgVal → Except PyExc Str
  | .none => .ok py!"None"
  | .int i => .ok (intStr i)
  | .bool b => .ok (if b then py!"True" else py!"False")
  | .str s => .ok s
  | .member text _ => .ok text
  | .dummy value => .ok value
  | .sfv true raw => base64Urlsafe raw
  | .sfv false raw => .ok raw
  | .assetId name value => assetIdStr name value

/-- shared.py 195-198 `unpack_enum` -/
def unpackEnum : ArgVal → Except PyExc (Option Str)
  | .none => .ok none
  | .member _ value => .ok (some value)
  | .dummy value => .ok (some value)
  | _ => .error .attributeError

section
variable {C E S : Type}

/-- reflect.py 150-163 `FunctionType.Argument` -/
structure Argument (C E S : Type) where
  name : Str
  ty : Ty C E S
  required : Bool
  deriving DecidableEq, Repr

/-- reflect.py 156-163 `FunctionType.Argument.__eq__`: the types are not compared -/
def Argument.sameAs (a b : Argument C E S) : Bool := a.name == b.name && a.required == b.required

/-- reflect.py 170-172 `FunctionType.__eq__` -/
def sameArgs : List (Argument C E S) → List (Argument C E S) → Bool
  | [], [] => true
  | a :: as, b :: bs => a.sameAs b && sameArgs as bs
  | _, _ => false

/-- what the generator asks of classes: the values of the members of an enumeration, the attribute `base64` of a class of formatted
strings, and whether a class is `AssetId` -/
structure Classes (C E S : Type) where
  enumValues : E → List Str
  base64 : S → Bool
  isAssetId : C → Bool

/-- generate.py 28 -/
def invalidBase64url : Str := py!"invalid-base64url====="

/-- `max(...)` of a list; `none` is `ValueError` -/
def maxLen : List Str → Option Nat
  | [] => none
  | s :: ss => some (ss.foldl (fun m t => max m t.length) s.length)

/-- generate.py 36-59 `generate_invalid_values` -/
def generateInvalidValues (k : Classes C E S) (arg : Argument C E S) : Except PyExc (List ArgVal) :=
  match arg.ty with
  | .number => if arg.name = py!"limit" then .ok [.int (-1)] else .error .notImplementedError
  | .str => .ok []
  | .sfv s => if k.base64 s then .ok [.str invalidBase64url] else .ok []
  | .enum e =>
    match maxLen (k.enumValues e) with
    | none => .error .valueError
    | some n => .ok [.dummy (List.replicate (n + 1) (pc! '#'))]
  | .bool => .ok [.str py!"invalid-bool"]
  | .cls c => if k.isAssetId c then .ok [.str invalidBase64url] else .ok []
  | _ => .error .notImplementedError

/-- keyword arguments; the keys are different -/
abbrev Kwargs := List (Str × ArgVal)

/-- generate.py 65 `{**valid_arguments, name: value}` -/
def Kwargs.set (name : Str) (value : ArgVal) : Kwargs → Kwargs
  | [] => [(name, value)]
  | (n, v) :: rest => if n = name then (n, value) :: rest else (n, v) :: Kwargs.set name value rest

/-- generate.py 68-74: `TypeError` becomes `NotImplementedError` -/
def onTypeError (scope : Str) (e : Exc) : Exc :=
  if e.kind = .typeError then
    ⟨.notImplementedError, py!"Caught the following exception:\n" ++ (e.text ++ (py!"\nHave you set valid_arguments during setup() ?\nScope: " ++ scope))⟩
  else e

end

section
variable {Q A C E S : Type}

/-- `try: p except ...: raise ...`: changes the exceptions that leave the program. Blocks with `catch_all_exceptions` keep theirs. -/
def mapExc {Q A : Type} (f : Exc → Exc) : {α : Type} → Prog Q A α → Prog Q A α
  | _, .pure a => .pure a
  | _, .abort r => .abort r
  | _, .raise e => .raise (f e)
  | _, .write r k => .write r (mapExc f k)
  | _, .query q k => .query q fun a => mapExc f (k a)
  | _, .block r c body k => .block r c (if c then body else mapExc f body) fun x v => mapExc f (k x v)

/-- the text of an exception raised by code of generate.py; only their classes matter -/
def excOf (e : PyExc) : Exc := ⟨e, []⟩

/-- generate.py 64-74 the call with one invalid value, then go on -/
def callWith (scope : Str) (func : Kwargs → Prog Q A Unit) (valid : Kwargs) (name : Str) (v : ArgVal) (k : Prog Q A Unit) : Prog Q A Unit :=
  match v.pyStr with
  | .error e => .raise (excOf e)
  | .ok text =>
    .block (Res.new (py!"Set " ++ (name ++ (py!" = '" ++ (text ++ py!"'"))))) false
      (mapExc (onTypeError scope) (func (Kwargs.set name v valid))) fun _ _ => k

/-- generate.py 63 the loop over the invalid values -/
def callAll (scope : Str) (func : Kwargs → Prog Q A Unit) (valid : Kwargs) (name : Str) (k : Prog Q A Unit) : List ArgVal → Prog Q A Unit
  | [] => k
  | v :: vs => callWith scope func valid name v (callAll scope func valid name k vs)

/-- generate.py 61-74 `generate_calls` -/
def generateCalls (c : Classes C E S) (scope : Str) (func : Kwargs → Prog Q A Unit) (valid : Kwargs) : List (Argument C E S) → Prog Q A Unit
  | [] => .pure ()
  | arg :: rest =>
    match generateInvalidValues c arg with
    | .error e => .raise (excOf e)
    | .ok vs => callAll scope func valid arg.name (generateCalls c scope func valid rest) vs

end
end Verif.Generate
