import Verif.JsonText

/-!
# Model of `json.loads` for bytes: `detect_encoding` (`json/__init__.py` of Python 3.11) and `bytes.decode(encoding, 'surrogatepass')`

Bytes are numbers below 256.
-/

namespace Verif.JsonText
open Verif

inductive Encoding
  | utf8 | utf8Sig | utf16 | utf16le | utf16be | utf32 | utf32le | utf32be
  deriving DecidableEq, Repr

/-- `json.detect_encoding` -/
def detectEncoding (b : List Nat) : Encoding :=
  if Py.startsWith b [0, 0, 0xfe, 0xff] || Py.startsWith b [0xff, 0xfe, 0, 0] then .utf32
  else if Py.startsWith b [0xfe, 0xff] || Py.startsWith b [0xff, 0xfe] then .utf16
  else if Py.startsWith b [0xef, 0xbb, 0xbf] then .utf8Sig
  else
    match b with
    | b0 :: b1 :: b2 :: b3 :: _ =>
      if b0 = 0 then (if b1 ≠ 0 then .utf16be else .utf32be)
      else if b1 = 0 then (if b2 ≠ 0 ∨ b3 ≠ 0 then .utf16le else .utf32le)
      else .utf8
    | [b0, b1] => if b0 = 0 then .utf16be else if b1 = 0 then .utf16le else .utf8
    | _ => .utf8

def isCont (b : Nat) : Bool := 0x80 ≤ b && b < 0xc0

/-- UTF-8, with surrogates; `none` is `UnicodeDecodeError` -/
def decodeUtf8 : List Nat → Option Str
  | [] => some []
  | a :: r =>
    if a < 0x80 then (decodeUtf8 r).map (a :: ·)
    else if a < 0xc2 then none
    else if a < 0xe0 then
      match r with
      | b :: r => if isCont b then (decodeUtf8 r).map (((a - 0xc0) * 64 + (b - 0x80)) :: ·) else none
      | _ => none
    else if a < 0xf0 then
      match r with
      | b :: c :: r =>
        let v := ((a - 0xe0) * 64 + (b - 0x80)) * 64 + (c - 0x80)
        if isCont b && isCont c && 0x800 ≤ v then (decodeUtf8 r).map (v :: ·) else none
      | _ => none
    else if a < 0xf5 then
      match r with
      | b :: c :: d :: r =>
        let v := (((a - 0xf0) * 64 + (b - 0x80)) * 64 + (c - 0x80)) * 64 + (d - 0x80)
        if isCont b && isCont c && isCont d && 0x10000 ≤ v && v < 0x110000 then (decodeUtf8 r).map (v :: ·) else none
      | _ => none
    else none

/-- the units of UTF-16; `none`: a byte is left -/
def units16 (little : Bool) : List Nat → Option (List Nat)
  | [] => some []
  | a :: b :: r => (units16 little r).map ((if little then b * 256 + a else a * 256 + b) :: ·)
  | _ => none

/-- surrogates become one character where they are a pair, and stay alone otherwise -/
def joinUnits : List Nat → Str
  | [] => []
  | [u] => [u]
  | u :: w :: r =>
    if isHigh u && isLow w then (0x10000 + (u - 0xd800) * 1024 + (w - 0xdc00)) :: joinUnits r
    else u :: joinUnits (w :: r)

def decodeUtf16 (little : Bool) (b : List Nat) : Option Str := (units16 little b).map joinUnits

/-- UTF-32; `none`: a number that is too large, or bytes that are left -/
def decodeUtf32 (little : Bool) : List Nat → Option Str
  | [] => some []
  | a :: b :: c :: d :: r =>
    let v := if little then ((d * 256 + c) * 256 + b) * 256 + a else ((a * 256 + b) * 256 + c) * 256 + d
    if v < 0x110000 then (decodeUtf32 little r).map (v :: ·) else none
  | _ => none

/-- `bytes.decode(encoding, 'surrogatepass')`; `none` is `UnicodeDecodeError`. The codecs `utf-16` and `utf-32` are used for bytes
that begin with a byte order mark. -/
def decodeBytes (e : Encoding) (b : List Nat) : Option Str :=
  match e with
  | .utf8 => decodeUtf8 b
  | .utf8Sig => decodeUtf8 (if Py.startsWith b [0xef, 0xbb, 0xbf] then b.drop 3 else b)
  | .utf16le => decodeUtf16 true b
  | .utf16be => decodeUtf16 false b
  | .utf16 => if Py.startsWith b [0xfe, 0xff] then decodeUtf16 false (b.drop 2) else decodeUtf16 true (b.drop 2)
  | .utf32le => decodeUtf32 true b
  | .utf32be => decodeUtf32 false b
  | .utf32 => if Py.startsWith b [0, 0, 0xfe, 0xff] then decodeUtf32 false (b.drop 4) else decodeUtf32 true (b.drop 4)

/-- `json.loads` of bytes -/
def loadsBytes (p : Nums) (b : List Nat) : Except Fail Json :=
  match decodeBytes (detectEncoding b) b with
  | none => .error (.raised .unicodeDecodeError)
  | some s => decode p s

end Verif.JsonText
