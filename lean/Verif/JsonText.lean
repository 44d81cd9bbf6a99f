import Verif.Json

/-!
# Model of Python's `json.loads` (`json/__init__.py`, `json/decoder.py`, `_json.c` of Python 3.11)

This is a library and no part of the repository; it is modelled because `check_json_file` (file.py 31-36) depends on how it fails.
Texts are consumed from the left. Inside the scanner a position is given by the number of characters that are left; `decode` turns it
into an index. The recursion of the scanner is bounded by the length of the text (Python's recursion limit is not modelled).
-/

namespace Verif.JsonText
open Verif

/-- how Python reads numbers: `lim` is `sys.get_int_max_str_digits()`; `real` is `float(text)`, an integer or any other number
(see `Json`) -/
structure Nums where
  lim : Option Nat
  real : Str → Int ⊕ Nat

/-- why `json.loads` fails -/
inductive Fail
  /-- `JSONDecodeError`: message, and number of characters that were left -/
  | syntax (msg : Str) (left : Nat)
  /-- any other exception -/
  | raised (e : PyExc)
  deriving DecidableEq, Repr

/-- `JSONDecodeError(msg, s, end)` where `rest` begins at `end` -/
def err {α : Type} (msg : Str) (rest : Str) : Except Fail α := .error (.syntax msg rest.length)

/-- `IS_WHITESPACE` -/
def isWs (c : Nat) : Bool := c == 32 || c == 9 || c == 10 || c == 13

def skipWs (s : Str) : Str := s.dropWhile isWs

/-- the value of a hexadecimal digit -/
def hexDigit (c : Nat) : Option Nat :=
  if pc! '0' ≤ c && c ≤ pc! '9' then some (c - pc! '0')
  else if pc! 'a' ≤ c && c ≤ pc! 'f' then some (c - pc! 'a' + 10)
  else if pc! 'A' ≤ c && c ≤ pc! 'F' then some (c - pc! 'A' + 10)
  else none

/-- `scanstring_unicode`: four hexadecimal digits, which are not the end of the text -/
def scanHex : Str → Option (Nat × Str)
  | a :: b :: c :: d :: e :: s =>
    match hexDigit a, hexDigit b, hexDigit c, hexDigit d with
    | some a, some b, some c, some d => some (((a * 16 + b) * 16 + c) * 16 + d, e :: s)
    | _, _, _, _ => none
  | _ => none

/-- `Py_UNICODE_IS_HIGH_SURROGATE`, `Py_UNICODE_IS_LOW_SURROGATE` -/
def isHigh (c : Nat) : Bool := 0xd800 ≤ c && c ≤ 0xdbff
def isLow (c : Nat) : Bool := 0xdc00 ≤ c && c ≤ 0xdfff

/-- the escapes of one character -/
def simpleEscape (c : Nat) : Option Nat :=
  if c = 34 ∨ c = 92 ∨ c = pc! '/' then some c
  else if c = pc! 'b' then some 8
  else if c = pc! 'f' then some 12
  else if c = pc! 'n' then some 10
  else if c = pc! 'r' then some 13
  else if c = pc! 't' then some 9
  else none

/-- `scanstring_unicode`: the character of `\uXXXX`, where `s` begins with `u`; two escapes are one character if they are a pair of
surrogates -/
def scanUnicode (s : Str) : Except Fail (Nat × Str) :=
  match scanHex (s.drop 1) with
  | none => err py!"Invalid \\uXXXX escape" s
  | some (c, r) =>
    if isHigh c && Py.startsWith r [92, pc! 'u'] then
      match scanHex (r.drop 2) with
      | none => err py!"Invalid \\uXXXX escape" (r.drop 1)
      | some (c2, r2) => if isLow c2 then .ok (0x10000 + (c - 0xd800) * 1024 + (c2 - 0xdc00), r2) else .ok (c, r)
    else .ok (c, r)

/-- `scanstring_unicode`, behind the opening quote (`start`: text from this quote on); fuel: the length of the text -/
def scanString (start : Str) : Nat → Str → Except Fail (Str × Str)
  | 0, _ => err py!"Unterminated string starting at" start
  | _, [] => err py!"Unterminated string starting at" start
  | n + 1, c :: s =>
    if c = 34 then .ok ([], s)
    else if c = 92 then
      match s with
      | [] => err py!"Unterminated string starting at" start
      | e :: r =>
        if e = pc! 'u' then do
          let (v, r) ← scanUnicode s
          let (t, r) ← scanString start n r
          .ok (v :: t, r)
        else
          match simpleEscape e with
          | none => err py!"Invalid \\escape" (c :: s)
          | some v => do
            let (t, r) ← scanString start n r
            .ok (v :: t, r)
    else if c < 32 then err py!"Invalid control character at" (c :: s)
    else do
      let (t, r) ← scanString start n s
      .ok (c :: t, r)

def isDigit (c : Nat) : Bool := pc! '0' ≤ c && c ≤ pc! '9'

/-- the digits of an integer without sign: `0`, or digits that do not begin with `0` -/
def scanDigits : Str → Option (Str × Str)
  | [] => none
  | c :: s =>
    if c = pc! '0' then some ([c], s)
    else if isDigit c then some (c :: s.takeWhile isDigit, s.dropWhile isDigit)
    else none

/-- `.` and digits -/
def scanFrac : Str → Str × Str
  | c :: d :: s => if c = pc! '.' && isDigit d then (c :: d :: s.takeWhile isDigit, s.dropWhile isDigit) else ([], c :: d :: s)
  | s => ([], s)

/-- `e` or `E`, sign, digits -/
def scanExp : Str → Str × Str
  | [] => ([], [])
  | c :: s =>
    if c = pc! 'e' ∨ c = pc! 'E' then
      let sign := if Py.startsWith s [pc! '+'] || Py.startsWith s [pc! '-'] then s.take 1 else []
      let r := s.drop sign.length
      if (r.takeWhile isDigit).isEmpty then ([], c :: s) else (c :: (sign ++ r.takeWhile isDigit), r.dropWhile isDigit)
    else ([], c :: s)

/-- the value of decimal digits -/
def digitsVal (ds : Str) : Nat := ds.foldl (fun n d => n * 10 + (d - pc! '0')) 0

/-- a number that is given as `float` -/
def ofReal : Int ⊕ Nat → Json
  | .inl i => .num i
  | .inr t => .float t

/-- `_match_number_unicode` -/
def scanNumber (p : Nums) (s : Str) : Except Fail (Json × Str) :=
  let (sign, u) := if Py.startsWith s [pc! '-'] then ([pc! '-'], s.drop 1) else ([], s)
  match scanDigits u with
  | none => err py!"Expecting value" s
  | some (ds, r) =>
    let (frac, r) := scanFrac r
    let (exp, r) := scanExp r
    if frac.isEmpty && exp.isEmpty then
      if p.lim.any (fun l => l < ds.length) then .error (.raised .valueError)
      else .ok (.num (if sign.isEmpty then (digitsVal ds : Int) else -(digitsVal ds : Int)), r)
    else .ok (ofReal (p.real (sign ++ (ds ++ (frac ++ exp)))), r)

/-- `d[k] = v` -/
def dictSet (k : Str) (v : Json) : List (Str × Json) → List (Str × Json)
  | [] => [(k, v)]
  | e :: d => if e.1 = k then (k, v) :: d else e :: dictSet k v d

/-- the dictionary after these assignments -/
def dictOf (kvs : List (Str × Json)) : List (Str × Json) := kvs.foldl (fun d e => dictSet e.1 e.2 d) []

/-- `scan_once_unicode`: the names of constants, and what they stand for -/
def constants (p : Nums) : List (Str × Json) :=
  [(py!"null", .null), (py!"true", .bool true), (py!"false", .bool false), (py!"NaN", ofReal (p.real py!"NaN")),
   (py!"Infinity", ofReal (p.real py!"Infinity")), (py!"-Infinity", ofReal (p.real py!"-Infinity"))]

mutual
/-- `scan_once_unicode` -/
def scanValue (p : Nums) : Nat → Str → Except Fail (Json × Str)
  | 0, s => err py!"Expecting value" s
  | _, [] => err py!"Expecting value" []
  | n + 1, c :: s =>
    if c = 34 then do
      let (t, r) ← scanString (c :: s) s.length s
      .ok (.str t, r)
    else if c = pc! '{' then
      let r := skipWs s
      if Py.startsWith r [pc! '}'] then .ok (.obj [], r.drop 1)
      else do
        let (kvs, r) ← scanMembers p n r
        .ok (.obj (dictOf kvs), r)
    else if c = pc! '[' then
      let r := skipWs s
      if Py.startsWith r [pc! ']'] then .ok (.arr [], r.drop 1)
      else do
        let (l, r) ← scanElements p n r
        .ok (.arr l, r)
    else
      match (constants p).find? fun k => Py.startsWith (c :: s) k.1 with
      | some k => .ok (k.2, (c :: s).drop k.1.length)
      | none => scanNumber p (c :: s)

/-- `_parse_object_unicode`, behind the opening bracket -/
def scanMembers (p : Nums) : Nat → Str → Except Fail (List (Str × Json) × Str)
  | 0, s => err py!"Expecting property name enclosed in double quotes" s
  | _, [] => err py!"Expecting property name enclosed in double quotes" []
  | n + 1, c :: s =>
    if c ≠ 34 then err py!"Expecting property name enclosed in double quotes" (c :: s)
    else do
      let (k, r) ← scanString (c :: s) s.length s
      let r := skipWs r
      if !Py.startsWith r [pc! ':'] then err py!"Expecting ':' delimiter" r
      else do
        let (v, r) ← scanValue p n (skipWs (r.drop 1))
        let r := skipWs r
        if Py.startsWith r [pc! '}'] then .ok ([(k, v)], r.drop 1)
        else if !Py.startsWith r [pc! ','] then err py!"Expecting ',' delimiter" r
        else do
          let (kvs, r) ← scanMembers p n (skipWs (r.drop 1))
          .ok ((k, v) :: kvs, r)

/-- `_parse_array_unicode`, behind the opening bracket -/
def scanElements (p : Nums) : Nat → Str → Except Fail (List Json × Str)
  | 0, s => err py!"Expecting value" s
  | n + 1, s => do
    let (v, r) ← scanValue p n s
    let r := skipWs r
    if Py.startsWith r [pc! ']'] then .ok ([v], r.drop 1)
    else if !Py.startsWith r [pc! ','] then err py!"Expecting ',' delimiter" r
    else do
      let (l, r) ← scanElements p n (skipWs (r.drop 1))
      .ok (v :: l, r)
end

/-- `JSONDecoder.decode` -/
def decode (p : Nums) (s : Str) : Except Fail Json := do
  let (v, r) ← scanValue p (2 * s.length + 1) (skipWs s)
  let r := skipWs r
  if r.isEmpty then .ok v else err py!"Extra data" r

/-- `json.loads` of a text -/
def loads (p : Nums) (s : Str) : Except Fail Json :=
  if Py.startsWith s [0xfeff] then err py!"Unexpected UTF-8 BOM (decode using utf-8-sig)" s
  else decode p s

end Verif.JsonText
